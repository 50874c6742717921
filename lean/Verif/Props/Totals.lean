import Verif.Lemmas.Settings
import Verif.Model.LeapfrogUniverse
import Verif.Props.Gr
import Verif.Props.Flattening
import Verif.Props.Gravity

/-! Properties C94-C96: the sums of all effects, the relativistic torque, and a step of LeapFrog with them. -/

namespace Posidonius.Univ
open Finset
open Gravity (Ignore newton)

variable {n : Nat}

section
variable {k : Consts ℝ} {m : Models ℝ} {eps2 time : ℝ} {evolution dL acc : Bool} {ignore : Ignore}
  {u u' : Universe ℝ n}

/-! ## C94 The totals -/

/-- With accelerations, the additional acceleration of a particle is the sum of the accelerations of the
effects switched on, whatever it was before. -/
theorem C94_acceleration
    (h : calculateAdditionalEffects k m eps2 time evolution dL true ignore u = some u') (i : Fin n) :
    (u'.particles i).inertialAdditionalAcceleration
      = (if u.consider.tides then (u'.particles i).tides.acceleration else 0)
        + (if u.consider.flattening then (u'.particles i).flattening.acceleration else 0)
        + (if u.consider.gr then (u'.particles i).gr.acceleration else 0)
        + (if u.consider.disk then (u'.particles i).disk.acceleration else 0) := by
  obtain ⟨-, -, -, -, -, pd, a, -, c⟩ := evaluation_totals h
  have e : ∀ q : Particle ℝ, q.inertialAdditionalAcceleration = 0 →
      (addAccelerations u.consider q).inertialAdditionalAcceleration
      = (if u.consider.tides then q.tides.acceleration else 0)
        + (if u.consider.flattening then q.flattening.acceleration else 0)
        + (if u.consider.gr then q.gr.acceleration else 0)
        + (if u.consider.disk then q.disk.acceleration else 0) := by
    intro q hq
    unfold addAccelerations
    dsimp only
    rw [hq]
    generalize q.tides.acceleration = t
    generalize q.flattening.acceleration = f
    generalize q.gr.acceleration = g
    generalize q.disk.acceleration = d
    cases u.consider.tides <;> cases u.consider.flattening <;> cases u.consider.gr <;> cases u.consider.disk <;>
      simp only [Bool.false_eq_true, if_false, if_true] <;> abel
  have z : (pd i).inertialAdditionalAcceleration = 0 := a i
  rw [c i]
  dsimp only
  generalize (dL && (u.consider.tides || u.consider.flattening
    || (u.consider.gr && (u.grImplementation == .kidder1995)) || u.consider.wind)) = b
  cases b
  · exact e (pd i) z
  · exact e (totalDL (pd i)) z

/-- The torques stored for effects that are switched off are zero, as in a new universe. -/
structure NoOffTorque (u : Universe ℝ n) : Prop where
  tides : u.consider.tides = false → ∀ i, (u.particles i).tides.dAngularMomentumDt = 0
  flattening : u.consider.flattening = false → ∀ i, (u.particles i).flattening.dAngularMomentumDt = 0
  gr : u.consider.gr = false → ∀ i, (u.particles i).gr.dAngularMomentumDt = 0
  wind : u.consider.wind = false → ∀ i, (u.particles i).wind.dAngularMomentumDt = 0

/-- With torques, the torque on a particle is the sum of the torques of the effects switched on, and this
remains so in later evaluations.  If no effect with torques is on, it is not touched. -/
theorem C94_torque (h0 : NoOffTorque u)
    (h : calculateAdditionalEffects k m eps2 time evolution true acc ignore u = some u') :
    NoOffTorque u' ∧ ∀ i, (u'.particles i).dAngularMomentumDt
      = if u.consider.tides || u.consider.flattening || (u.consider.gr && (u.grImplementation == .kidder1995))
          || u.consider.wind then
        (if u.consider.tides then (u'.particles i).tides.dAngularMomentumDt else 0)
        + (if u.consider.flattening then (u'.particles i).flattening.dAngularMomentumDt else 0)
        + (if u.consider.gr then (u'.particles i).gr.dAngularMomentumDt else 0)
        + (if u.consider.wind then (u'.particles i).wind.dAngularMomentumDt else 0)
        else (u.particles i).dAngularMomentumDt := by
  obtain ⟨e, -, -, -, o, pd, -, b, c⟩ := evaluation_totals h
  have q : NoOffTorque u' := by
    refine ⟨fun x i => ?_, fun x i => ?_, fun x i => ?_, fun x i => ?_⟩ <;> rw [e] at x
    · rw [o.tides x, h0.tides x]
    · rw [o.flattening x, h0.flattening x]
    · rw [o.gr x, h0.gr x]
    · rw [o.wind x, h0.wind x]
  refine ⟨q, fun i => ?_⟩
  have t : ∀ {b : Bool} {x : Axes ℝ}, (b = false → x = 0) → (if b then x else 0) = x := by
    intro b x hb
    cases b
    · rw [hb rfl, ite_self]
    · rfl
  rw [t (fun x => q.tides (by rw [e]; exact x) i), t (fun x => q.flattening (by rw [e]; exact x) i),
    t (fun x => q.gr (by rw [e]; exact x) i), t (fun x => q.wind (by rw [e]; exact x) i)]
  rw [c i, Bool.true_and]
  dsimp only
  generalize (u.consider.tides || u.consider.flattening
    || (u.consider.gr && (u.grImplementation == .kidder1995)) || u.consider.wind) = on
  cases on
  · cases acc <;> exact b i
  · cases acc <;> rfl

/-- Without an evaluation of torques nothing changes the torque. -/
theorem C94_no_torque
    (h : calculateAdditionalEffects k m eps2 time evolution false acc ignore u = some u') (i : Fin n) :
    (u'.particles i).dAngularMomentumDt = (u.particles i).dAngularMomentumDt := by
  obtain ⟨-, -, -, -, -, pd, -, b, c⟩ := evaluation_totals h
  rw [c i, Bool.false_and]
  cases acc <;> exact b i

end

/-! ## C95 The relativistic torque -/

section
variable {k : Consts ℝ} {m : Models ℝ} {eps2 time : ℝ} {evolution : Bool} {ignore : Ignore}
  {u u' : Universe ℝ n}

/-- Only relativity by Kidder is on: the torque is the relativistic one if accelerations are asked for too.
Missing: evaluations without accelerations (`C95_violated`). -/
theorem C95_partial (h0 : NoOffTorque u) (cg : u.consider = ⟨false, false, true, false, false, false⟩)
    (gi : u.grImplementation = .kidder1995)
    (h : calculateAdditionalEffects k m eps2 time evolution true true ignore u = some u') (i : Fin n) :
    (u'.particles i).dAngularMomentumDt = (u'.particles i).gr.dAngularMomentumDt := by
  rw [(C94_torque h0 h).2 i, cg, gi]
  simp

/-- If accelerations are not asked for, relativity by Kidder is reset but not computed: all bodies that take
part get the torque zero. -/
theorem gr_torque_reset (hok : GrHostOk u) {h : Fin n} (hh : u.hosts.gr = some h) (cg : u.consider.gr = true)
    (gi : u.grImplementation = .kidder1995) (hg : (u.particles h).gr.effect = .central .kidder1995)
    (hu : calculateAdditionalEffects k m eps2 time evolution true false ignore u = some u') (i : Fin n)
    (hi : i = h ∨ (u.particles i).gr.effect = .orbiting) : (u'.particles i).gr.dAngularMomentumDt = 0 := by
  unfold calculateAdditionalEffects at hu
  split at hu
  · simp at hu
  rename_i u1 h1
  split at hu
  · simp at hu
  rename_i u2 h2
  obtain ⟨pf, pg, -, b, c, d⟩ := initializeAll_gr h1
  have zero : ∀ (f : Fin n → (Fin n → Particle ℝ) → (Fin n → Particle ℝ)),
      (∀ i, (f h pf i).gr.effect = (pf i).gr.effect) →
      (grInitialize h (f h pf) i).gr.dAngularMomentumDt = 0 := by
    intro f hf
    rw [grInitialize_active (Or.inl (by rw [hf, b, hg]))]
    by_cases e : i = h
    · subst e
      rw [mapOthers_host, mapHost_host]
      rfl
    · have ho : (f h pf i).gr.effect.isOrbiting = true := by
        rw [hf, b, hi.resolve_left e]; rfl
      rw [mapOthers_other e, mapHost_other e, if_pos ho]
      rfl
  have hgf : GrHost (pf h).gr := Or.inl (by rw [b, hg])
  have z1 : (u1.particles i).gr.dAngularMomentumDt = 0 := by
    rw [d]
    unfold initializeEffect at c
    rw [cg, gi] at c
    rw [if_pos (by simp)] at c
    split at c
    · rename_i hm
      have hmm := (hok.gr cg).1 hm
      rw [hh] at hmm
      injection hmm with hmm
      injection c with c
      subst c
      rw [← hmm]
      exact zero grCopyHeliocentric (grCopy_fields h pf hgf).1
    · rename_i hm
      split at c
      · rename_i ha
        exact absurd (hok.allGr ha cg) hm
      · rw [hh] at c
        injection c with c
        subst c
        exact zero grInertialToHeliocentric (grConvert_fields h pf hgf).1
  obtain ⟨b1, -⟩ := calculateSpinAndEvolving_step h2
  have z2 : (u2.particles i).gr.dAngularMomentumDt = (u1.particles i).gr.dAngularMomentumDt := by
    have := congrArg (fun q : Particle ℝ => q.gr.dAngularMomentumDt) (spinAndEvolving_noSpin (b1 i))
    exact this
  obtain ⟨-, -, -, pd, -, -, e, f⟩ := effects_totals hu
  rw [← z1, ← z2, ← e rfl i, f i]
  dsimp only
  split <;> split <;> rfl

/-- In an evaluation of the torques without accelerations the relativistic torque is missing, for all
masses, orbits and spins. -/
theorem C95_violated (h0 : NoOffTorque u) (hok : GrHostOk u) {h : Fin n} (hh : u.hosts.gr = some h)
    (cg : u.consider.gr = true) (gi : u.grImplementation = .kidder1995)
    (hg : (u.particles h).gr.effect = .central .kidder1995)
    (hu : calculateAdditionalEffects k m eps2 time evolution true false ignore u = some u') (i : Fin n)
    (hi : i = h ∨ (u.particles i).gr.effect = .orbiting) :
    (u'.particles i).dAngularMomentumDt
      = (if u.consider.tides then (u'.particles i).tides.dAngularMomentumDt else 0)
        + (if u.consider.flattening then (u'.particles i).flattening.dAngularMomentumDt else 0)
        + (if u.consider.wind then (u'.particles i).wind.dAngularMomentumDt else 0) := by
  rw [(C94_torque h0 hu).2 i, gr_torque_reset hok hh cg gi hg hu i hi, if_pos (by rw [cg, gi]; simp), ite_self,
    add_zero]

end

/-! ## C96 A step of LeapFrog with all effects -/

section
variable {k : Consts ℝ} {m : Models ℝ} {eps2 time dt : ℝ} {roche : Fin n → Fin n → ℝ} {u u' : Universe ℝ n}

/-- The acceleration by all the effects switched on. -/
noncomputable def additional (c : Consider) (p : Particle ℝ) : Axes ℝ :=
  (if c.tides then p.tides.acceleration else 0) + (if c.flattening then p.flattening.acceleration else 0)
    + (if c.gr then p.gr.acceleration else 0) + (if c.disk then p.disk.acceleration else 0)

theorem fixed_field {A : Type} (f : Particle ℝ → A) (hf : ∀ q, f q = f (fixed q)) {p q : Fin n → Particle ℝ}
    (h : Same fixed q p) (i : Fin n) : f (q i) = f (p i) := by
  rw [hf, h i, ← hf]

theorem settings_field {A : Type} (f : Particle ℝ → A) (hf : ∀ q, f q = f (settings q)) {p q : Fin n → Particle ℝ}
    (h : Same settings q p) (i : Fin n) : f (q i) = f (p i) := by
  rw [hf, h i, ← hf]

theorem helio_field {A : Type} (f : Particle ℝ → A) (h1 : ∀ q, f (zeroHeliocentric q) = f q)
    (h2 : ∀ p q, f (toHeliocentric p q) = f q) (u : Universe ℝ n) (i : Fin n) :
    f ((inertialToHeliocentric u).particles i) = f (u.particles i) := by
  unfold inertialToHeliocentric
  dsimp only
  by_cases hi : i = u.hosts.mostMassive
  · subst hi
    rw [mapHost_host, mapOthers_host, h1]
  · rw [mapHost_other hi, mapOthers_other hi, h2]

/-- The parts of a step: `u1` after the first evaluation, `u2` at the midpoint with the gravity `a`, `u3`
after the second evaluation. -/
theorem leapfrogStep_parts {half : ℝ} (h : leapfrogStep k m eps2 roche dt half time u = some u') :
    ∃ u1 u3 : Universe ℝ n, ∃ a : Fin n → Axes ℝ,
      calculateAdditionalEffects k m eps2 time true true false .none (inertialToHeliocentric u) = some u1
      ∧ Gravity.gravity k.g (fun i => bodyOf ((drift half u1).particles i)) roche .none u1.hosts.mostMassive = .ok a
      ∧ calculateAdditionalEffects k m eps2 (time + half) true true true .none
        (inertialToHeliocentric { drift half u1 with
          particles := fun i => { (drift half u1).particles i with inertialAcceleration := a i } }) = some u3
      ∧ u' = kickDrift dt half { u3 with particles := fun i => applyAccelerations (u3.particles i) } := by
  unfold leapfrogStep at h
  split at h
  · simp at h
  rename_i u1 h1
  split at h
  · simp at h
  rename_i u2 h2
  split at h
  · simp at h
  rename_i u3 h3
  injection h with h
  unfold universeGravity at h2
  split at h2
  · simp at h2
  rename_i a ha
  injection h2 with h2
  subst h2
  exact ⟨u1, u3, a, h1, ha, h3, h.symm⟩

/-- A step with all effects is the midpoint rule for Newton's law and the sum of the effects switched on; the
rotational angular momentum changes by the mean of the torques at the start (`u1`) and at the midpoint. -/
theorem C96_step (h : leapfrogStep k m eps2 roche dt (dt / 2) time u = some u') :
    ∃ u1, calculateAdditionalEffects k m eps2 time true true false .none (inertialToHeliocentric u) = some u1
      ∧ ∀ i,
      let mid := fun j => (u.particles j).inertialPosition + (dt / 2) • (u.particles j).inertialVelocity
      (u'.particles i).mass = (u.particles i).mass
      ∧ (u'.particles i).inertialVelocity = (u.particles i).inertialVelocity
        + dt • ((∑ j, if j = i then 0 else newton k.g (u.particles j).mass (mid i) (mid j))
          + additional u.consider (u'.particles i))
      ∧ (u'.particles i).inertialPosition = (u.particles i).inertialPosition
        + dt • ((1 / 2 : ℝ) • ((u.particles i).inertialVelocity + (u'.particles i).inertialVelocity))
      ∧ (u'.particles i).angularMomentum = (u.particles i).angularMomentum
        + dt • ((1 / 2 : ℝ) • ((u1.particles i).dAngularMomentumDt + (u'.particles i).dAngularMomentumDt)) := by
  obtain ⟨u1, u3, a, h1, ha, h3, h4⟩ := leapfrogStep_parts h
  refine ⟨u1, h1, fun i => ?_⟩
  intro mid
  obtain ⟨c1, -, -, f1, -, -⟩ := evaluation_totals h1
  obtain ⟨c3, -, -, f3, -, -⟩ := evaluation_totals h3
  have e1 : ∀ {A : Type} (f : Particle ℝ → A), (∀ q, f q = f (fixed q)) → (∀ q, f (zeroHeliocentric q) = f q) →
      (∀ p q, f (toHeliocentric p q) = f q) → ∀ j, f (u1.particles j) = f (u.particles j) :=
    fun f x y z j => (fixed_field f x f1 j).trans (helio_field f y z u j)
  have e3 : ∀ {A : Type} (f : Particle ℝ → A), (∀ q, f q = f (fixed q)) → (∀ q, f (zeroHeliocentric q) = f q) →
      (∀ p q, f (toHeliocentric p q) = f q) → ∀ j, f (u3.particles j)
        = f { (drift (dt / 2) u1).particles j with inertialAcceleration := a j } :=
    fun f x y z j => (fixed_field f x f3 j).trans (helio_field f y z _ j)
  have m1 := e1 Particle.mass (fun _ => rfl) (fun _ => rfl) (fun _ _ => rfl)
  have x1 := e1 Particle.inertialPosition (fun _ => rfl) (fun _ => rfl) (fun _ _ => rfl)
  have v1 := e1 Particle.inertialVelocity (fun _ => rfl) (fun _ => rfl) (fun _ _ => rfl)
  have l1 := e1 Particle.angularMomentum (fun _ => rfl) (fun _ => rfl) (fun _ _ => rfl)
  have m3 : (u3.particles i).mass = (u.particles i).mass :=
    (e3 Particle.mass (fun _ => rfl) (fun _ => rfl) (fun _ _ => rfl) i).trans (m1 i)
  have x3 : (u3.particles i).inertialPosition = mid i :=
    (e3 Particle.inertialPosition (fun _ => rfl) (fun _ => rfl) (fun _ _ => rfl) i).trans (by
      show (u1.particles i).inertialPosition + (dt / 2) • (u1.particles i).inertialVelocity = mid i
      rw [x1, v1])
  have v3 : (u3.particles i).inertialVelocity = (u.particles i).inertialVelocity :=
    (e3 Particle.inertialVelocity (fun _ => rfl) (fun _ => rfl) (fun _ _ => rfl) i).trans (v1 i)
  have a3 : (u3.particles i).inertialAcceleration = a i :=
    e3 Particle.inertialAcceleration (fun _ => rfl) (fun _ => rfl) (fun _ _ => rfl) i
  have l3 : (u3.particles i).angularMomentum
      = (u.particles i).angularMomentum + smulRight (u1.particles i).dAngularMomentumDt (dt / 2) :=
    (e3 Particle.angularMomentum (fun _ => rfl) (fun _ => rfl) (fun _ _ => rfl) i).trans (by
      show (u1.particles i).angularMomentum + smulRight (u1.particles i).dAngularMomentumDt (dt / 2) = _
      rw [l1])
  have hn := Gravity.C19_newtons_law k.g _ roche _ a ha i
  have hb : ∀ j, (bodyOf ((drift (dt / 2) u1).particles j)).position = mid j := fun j => by
    show (u1.particles j).inertialPosition + (dt / 2) • (u1.particles j).inertialVelocity = mid j
    rw [x1, v1]
  have hm : ∀ j, (bodyOf ((drift (dt / 2) u1).particles j)).mass = (u.particles j).mass := fun j => m1 j
  simp only [hb, hm] at hn
  have add : (u3.particles i).inertialAdditionalAcceleration = additional u.consider (u3.particles i) := by
    rw [C94_acceleration h3 i]
    have : (inertialToHeliocentric { drift (dt / 2) u1 with
      particles := fun i => { (drift (dt / 2) u1).particles i with inertialAcceleration := a i } }).consider
      = u.consider := c1
    rw [this]
    rfl
  have vel : (u'.particles i).inertialVelocity = (u.particles i).inertialVelocity
      + dt • ((∑ j, if j = i then 0 else newton k.g (u.particles j).mass (mid i) (mid j))
        + additional u.consider (u'.particles i)) := by
    rw [h4]
    show (u3.particles i).inertialVelocity
      + dt • ((u3.particles i).inertialAcceleration + (u3.particles i).inertialAdditionalAcceleration) = _
    rw [v3, a3, add, hn]
    rfl
  refine ⟨by rw [h4]; exact m3, vel, ?_, ?_⟩
  · have : (u'.particles i).inertialPosition = (u3.particles i).inertialPosition
        + (dt / 2) • (u'.particles i).inertialVelocity := by rw [h4]; rfl
    rw [this, x3]
    module
  · have : (u'.particles i).angularMomentum = (u3.particles i).angularMomentum
        + smulRight (u'.particles i).dAngularMomentumDt (dt / 2) := by rw [h4]; rfl
    rw [this, l3]
    ext <;> simp [smulRight] <;> ring

/-- The effects after a step are those of an evaluation in the middle of the step (`u3`): at half of the time, with
the positions, the velocities, the attraction and the angular momenta reached there by the universe `u2`, whose
configuration is that of the beginning. -/
theorem C96_midpoint (h : leapfrogStep k m eps2 roche dt (dt / 2) time u = some u') :
    ∃ u1 u2 u3 : Universe ℝ n,
      calculateAdditionalEffects k m eps2 time true true false .none (inertialToHeliocentric u) = some u1
      ∧ calculateAdditionalEffects k m eps2 (time + dt / 2) true true true .none (inertialToHeliocentric u2) = some u3
      ∧ u2.consider = u.consider ∧ u2.hosts = u.hosts ∧ u2.grImplementation = u.grImplementation
      ∧ Same settings u2.particles u.particles
      ∧ ∀ i,
      let mid := fun j => (u.particles j).inertialPosition + (dt / 2) • (u.particles j).inertialVelocity
      (u2.particles i).inertialPosition = mid i
      ∧ (u2.particles i).inertialVelocity = (u.particles i).inertialVelocity
      ∧ (u2.particles i).inertialAcceleration
        = ∑ j, (if j = i then 0 else newton k.g (u.particles j).mass (mid i) (mid j))
      ∧ (u2.particles i).angularMomentum
        = (u.particles i).angularMomentum + (dt / 2) • (u1.particles i).dAngularMomentumDt
      ∧ (u'.particles i).tides = (u3.particles i).tides
      ∧ (u'.particles i).flattening = (u3.particles i).flattening
      ∧ (u'.particles i).gr = (u3.particles i).gr
      ∧ (u'.particles i).disk = (u3.particles i).disk
      ∧ (u'.particles i).wind = (u3.particles i).wind
      ∧ (u'.particles i).dAngularMomentumDt = (u3.particles i).dAngularMomentumDt := by
  obtain ⟨u1, u3, a, h1, ha, h3, h4⟩ := leapfrogStep_parts h
  obtain ⟨c1, g1, t1, f1, -, -⟩ := evaluation_totals h1
  have s1 := (evaluation_settings h1).trans (inertialToHeliocentric_settings u)
  have e1 : ∀ {A : Type} (f : Particle ℝ → A), (∀ q, f q = f (fixed q)) → (∀ q, f (zeroHeliocentric q) = f q) →
      (∀ p q, f (toHeliocentric p q) = f q) → ∀ j, f (u1.particles j) = f (u.particles j) :=
    fun f x y z j => (fixed_field f x f1 j).trans (helio_field f y z u j)
  have m1 := e1 Particle.mass (fun _ => rfl) (fun _ => rfl) (fun _ _ => rfl)
  have x1 := e1 Particle.inertialPosition (fun _ => rfl) (fun _ => rfl) (fun _ _ => rfl)
  have v1 := e1 Particle.inertialVelocity (fun _ => rfl) (fun _ => rfl) (fun _ _ => rfl)
  have l1 := e1 Particle.angularMomentum (fun _ => rfl) (fun _ => rfl) (fun _ _ => rfl)
  refine ⟨u1, _, u3, h1, h3, c1, t1, g1, fun i => s1 i, fun i => ?_⟩
  intro mid
  have hn := Gravity.C19_newtons_law k.g _ roche _ a ha i
  have hb : ∀ j, (bodyOf ((drift (dt / 2) u1).particles j)).position = mid j := fun j => by
    show (u1.particles j).inertialPosition + (dt / 2) • (u1.particles j).inertialVelocity = mid j
    rw [x1, v1]
  have hm : ∀ j, (bodyOf ((drift (dt / 2) u1).particles j)).mass = (u.particles j).mass := fun j => m1 j
  simp only [hb, hm] at hn
  refine ⟨hb i, v1 i, hn, ?_, ?_, ?_, ?_, ?_, ?_, ?_⟩
  · show (u1.particles i).angularMomentum + smulRight (u1.particles i).dAngularMomentumDt (dt / 2) = _
    rw [l1]
    ext <;> simp [smulRight] <;> ring
  all_goals rw [h4]; rfl

/-- Only relativity by Kidder is on: a step turns the spins by half of the relativistic torque at the
midpoint, whatever the time step. -/
theorem C95_violated_step (h0 : NoOffTorque u) (hok : GrHostOk u) {h : Fin n} (hh : u.hosts.gr = some h)
    (cg : u.consider = ⟨false, false, true, false, false, false⟩) (gi : u.grImplementation = .kidder1995)
    (hg : (u.particles h).gr.effect = .central .kidder1995)
    (hu : leapfrogStep k m eps2 roche dt (dt / 2) time u = some u') (i : Fin n)
    (hi : i = h ∨ (u.particles i).gr.effect = .orbiting) :
    (u'.particles i).angularMomentum - (u.particles i).angularMomentum
      = (dt / 2) • (u'.particles i).gr.dAngularMomentumDt := by
  obtain ⟨u1', e0, e⟩ := C96_step hu
  obtain ⟨u1, u3, a, h1, ha, h3, h4⟩ := leapfrogStep_parts hu
  obtain rfl : u1' = u1 := by rw [h1] at e0; exact (Option.some.inj e0).symm
  have gr0 : ∀ j, ((inertialToHeliocentric u).particles j).gr = (u.particles j).gr :=
    helio_field Particle.gr (fun _ => rfl) (fun _ _ => rfl) u
  have n0 : NoOffTorque (inertialToHeliocentric u) :=
    ⟨fun x j => by rw [helio_field Particle.tides (fun _ => rfl) (fun _ _ => rfl)]; exact h0.tides x j,
      fun x j => by rw [helio_field Particle.flattening (fun _ => rfl) (fun _ _ => rfl)]; exact h0.flattening x j,
      fun x j => by rw [gr0]; exact h0.gr x j,
      fun x j => by rw [helio_field Particle.wind (fun _ => rfl) (fun _ _ => rfl)]; exact h0.wind x j⟩
  have t1 := C95_violated n0 ⟨hok.gr, hok.allGr⟩ hh (by show u.consider.gr = true; rw [cg]) gi
    (by rw [gr0]; exact hg) h1 i (by rw [gr0]; exact hi)
  have cc : (inertialToHeliocentric u).consider = ⟨false, false, true, false, false, false⟩ := cg
  rw [cc] at t1
  simp only [Bool.false_eq_true, if_false, add_zero] at t1
  obtain ⟨c1, g1, -, -, -, -⟩ := evaluation_totals h1
  have n1 := (C94_torque n0 h1).1
  set u2 : Universe ℝ n := { drift (dt / 2) u1' with
    particles := fun i => { (drift (dt / 2) u1').particles i with inertialAcceleration := a i } } with hu2
  have n2 : NoOffTorque (inertialToHeliocentric u2) :=
    ⟨fun x j => by rw [helio_field Particle.tides (fun _ => rfl) (fun _ _ => rfl)]; exact n1.tides x j,
      fun x j => by rw [helio_field Particle.flattening (fun _ => rfl) (fun _ _ => rfl)]; exact n1.flattening x j,
      fun x j => by rw [helio_field Particle.gr (fun _ => rfl) (fun _ _ => rfl)]; exact n1.gr x j,
      fun x j => by rw [helio_field Particle.wind (fun _ => rfl) (fun _ _ => rfl)]; exact n1.wind x j⟩
  have t3 := C95_partial n2 (c1.trans cc) (g1.trans gi) h3 i
  have q1 : (u'.particles i).dAngularMomentumDt = (u3.particles i).dAngularMomentumDt := by rw [h4]; rfl
  have q2 : (u'.particles i).gr = (u3.particles i).gr := by rw [h4]; rfl
  obtain ⟨-, -, -, l⟩ := e i
  rw [l, t1, q1, t3, q2]
  module

/-! ### Momentum -/

/-- A closed system: no disk, and every effect switched on acts between its host and all the others. -/
structure Closed (u : Universe ℝ n) : Prop where
  hosts : HostsOk u
  grHosts : GrHostOk u
  disk : u.consider.disk = false
  mass : ∀ i, (u.particles i).mass ≠ 0
  tides : u.consider.tides = true → ∃ h, u.hosts.tides = some h ∧ AllCtl h u.particles
  flattening : u.consider.flattening = true →
    ∃ h love, u.hosts.flattening = some h ∧ AllOblate h love u.particles
  gr : u.consider.gr = true → ∃ h, u.hosts.gr = some h
    ∧ (u.particles h).gr.effect = .central .kidder1995 ∧ ∀ i, i ≠ h → (u.particles i).gr.effect = .orbiting

theorem Closed.congr {u v : Universe ℝ n} (h : Closed u) (hc : v.consider = u.consider) (hh : v.hosts = u.hosts)
    (hs : Same settings v.particles u.particles) : Closed v where
  hosts := by
    obtain ⟨a, b, c, d, e⟩ := h.hosts
    constructor <;> rw [hc, hh] <;> assumption
  grHosts := by
    obtain ⟨a, b⟩ := h.grHosts
    constructor <;> rw [hc, hh] <;> assumption
  disk := by rw [hc]; exact h.disk
  mass i := by rw [settings_field Particle.mass (fun _ => rfl) hs]; exact h.mass i
  tides x := by
    rw [hc] at x
    obtain ⟨j, a, b⟩ := h.tides x
    exact ⟨j, by rw [hh]; exact a,
      b.congr fun i => settings_field (fun q => q.tides.effect) (fun _ => rfl) hs i⟩
  flattening x := by
    rw [hc] at x
    obtain ⟨j, l, a, b⟩ := h.flattening x
    exact ⟨j, l, by rw [hh]; exact a,
      b.congr fun i => settings_field (fun q => q.flattening.effect) (fun _ => rfl) hs i⟩
  gr x := by
    rw [hc] at x
    obtain ⟨j, a, b, c⟩ := h.gr x
    have e := settings_field (fun q => q.gr.effect) (fun _ => rfl) hs
    exact ⟨j, by rw [hh]; exact a, by rw [← b]; exact e j, fun i hi => by rw [← c i hi]; exact e i⟩

/-- Gravity goes on only if no two bodies are at the same place. -/
theorem separated {p : Fin n → Gravity.Body ℝ} {G : ℝ} {ig : Ignore} {mm : Nat} {a : Fin n → Axes ℝ}
    (h : Gravity.gravity G p roche ig mm = .ok a) (i j : Fin n) (hij : i ≠ j) : (p i).position ≠ (p j).position := by
  have key : ∀ i j : Fin n, i < j → (p i).position ≠ (p j).position := by
    intro i j hij e
    have := ((Gravity.C45_partial_goes_on_iff G p roche ig mm Gravity.maxDistance2_pos).1 ⟨a, h⟩ i j hij).1
    apply this
    unfold Gravity.InsideRoche
    rw [Gravity.distance2_eq, Gravity.dist, e, sub_self]
    simp [Axes.dot]
    exact mul_self_nonneg _
  rcases lt_or_gt_of_ne hij with l | l
  · exact key i j l
  · exact (key j i l).symm

/-- One step of a closed system with tides, flattening, relativity, winds and evolving bodies keeps the total
linear momentum, and the system remains closed. -/
theorem momentum_step (hc : Closed u) (h : leapfrogStep k m eps2 roche dt (dt / 2) time u = some u') :
    Closed u' ∧ (∀ i, (u'.particles i).mass = (u.particles i).mass)
      ∧ ∑ i, (u'.particles i).mass • (u'.particles i).inertialVelocity
        = ∑ i, (u.particles i).mass • (u.particles i).inertialVelocity := by
  obtain ⟨u1, u3, a, h1, ha, h3, h4⟩ := leapfrogStep_parts h
  obtain ⟨_, -, e⟩ := C96_step h
  obtain ⟨c1, -, t1, f1, -, -⟩ := evaluation_totals h1
  obtain ⟨c3, -, t3, -, -, -⟩ := evaluation_totals h3
  have s1 : Same settings u1.particles u.particles :=
    (evaluation_settings h1).trans (inertialToHeliocentric_settings u)
  have k1 : Closed u1 := hc.congr c1 t1 s1
  set u2 : Universe ℝ n := { drift (dt / 2) u1 with
    particles := fun i => { (drift (dt / 2) u1).particles i with inertialAcceleration := a i } } with hu2
  have k2 : Closed u2 := k1.congr rfl rfl (fun i => rfl)
  have k3 : Closed u3 :=
    k2.congr c3 t3 ((evaluation_settings h3).trans (inertialToHeliocentric_settings u2))
  have k4 : Closed u' := by
    rw [h4]
    exact k3.congr rfl rfl (fun i => rfl)
  have m2 : ∀ i, (u2.particles i).mass = (u.particles i).mass := fun i =>
    settings_field Particle.mass (fun _ => rfl) s1 i
  have mm : ∀ i, (u'.particles i).mass = (u.particles i).mass := fun i => (e i).1
  have cc : u2.consider = u.consider := c1
  refine ⟨k4, mm, ?_⟩
  have sep : ∀ i j, i ≠ j → (u2.particles i).inertialPosition ≠ (u2.particles j).inertialPosition :=
    fun i j hij => separated ha i j hij
  have hv : (u2.particles u2.hosts.mostMassive).heliocentricVelocity = 0 := by
    show (u1.particles u1.hosts.mostMassive).heliocentricVelocity = 0
    rw [fixed_field Particle.heliocentricVelocity (fun _ => rfl) f1, t1]
    show (mapHost u.hosts.mostMassive zeroHeliocentric _ u.hosts.mostMassive).heliocentricVelocity = 0
    rw [mapHost_host]
    rfl
  have pt : u.consider.tides = true → ∑ i, (u.particles i).mass • (u'.particles i).tides.acceleration = 0 := by
    intro x
    rw [← cc] at x
    obtain ⟨j, j1, j2⟩ := k2.tides x
    have := C33_evaluation k2.hosts j1 x j2 k2.mass (fun i hi => sep i j hi) h3
    simp only [m2] at this
    rw [h4]
    exact this
  have pf : u.consider.flattening = true →
      ∑ i, (u.particles i).mass • (u'.particles i).flattening.acceleration = 0 := by
    intro x
    rw [← cc] at x
    obtain ⟨j, l, j1, j2⟩ := k2.flattening x
    have := C38_momentum k2.hosts j1 x j2 k2.mass h3
    simp only [m2] at this
    rw [h4]
    exact this
  have pg : u.consider.gr = true → ∑ i, (u.particles i).mass • (u'.particles i).gr.acceleration = 0 := by
    intro x
    rw [← cc] at x
    obtain ⟨j, j1, j2, j3⟩ := k2.gr x
    have := (C40_momentum k2.grHosts j1 x j2 hv (k2.mass j)
      (fun i hi ho => by rw [j3 i hi] at ho; simp [GrEffect.isOrbiting] at ho) h3).1
    simp only [m2] at this
    rw [h4]
    exact this
  have pa : ∑ i, (u.particles i).mass • additional u.consider (u'.particles i) = 0 := by
    unfold additional
    rw [hc.disk]
    simp only [Bool.false_eq_true, if_false, add_zero, smul_add, sum_add_distrib]
    have z : ∀ {b : Bool} {f : Fin n → Axes ℝ}, (b = true → ∑ i, (u.particles i).mass • f i = 0) →
        ∑ i, (u.particles i).mass • (if b then f i else 0) = 0 := by
      intro b f hb
      cases b
      · simp
      · exact hb rfl
    rw [z pt, z pf, z pg, add_zero, add_zero]
  have pn : ∑ i, (u.particles i).mass • a i = 0 := by
    have := Gravity.C19_forces_balance k.g _ roche _ _ a ha
    rw [← this]
    exact sum_congr rfl fun i _ => by rw [← m2 i]; rfl
  have hb : ∀ j, (bodyOf ((drift (dt / 2) u1).particles j)).position
      = (u.particles j).inertialPosition + (dt / 2) • (u.particles j).inertialVelocity := fun j => by
    show (u1.particles j).inertialPosition + (dt / 2) • (u1.particles j).inertialVelocity = _
    rw [fixed_field Particle.inertialPosition (fun _ => rfl) f1,
      fixed_field Particle.inertialVelocity (fun _ => rfl) f1,
      helio_field Particle.inertialPosition (fun _ => rfl) (fun _ _ => rfl),
      helio_field Particle.inertialVelocity (fun _ => rfl) (fun _ _ => rfl)]
  have hm : ∀ j, (bodyOf ((drift (dt / 2) u1).particles j)).mass = (u.particles j).mass := m2
  have vel : ∀ i, (u.particles i).mass • (u'.particles i).inertialVelocity
      = (u.particles i).mass • (u.particles i).inertialVelocity + (dt • (u.particles i).mass • a i
        + dt • (u.particles i).mass • additional u.consider (u'.particles i)) := by
    intro i
    have hn := Gravity.C19_newtons_law k.g _ roche _ a ha i
    simp only [hb, hm] at hn
    rw [(e i).2.1, ← hn]
    module
  simp only [mm, vel, sum_add_distrib, ← smul_sum, pn, pa, smul_zero, add_zero]

/-- Any number of steps, at any times. -/
inductive Steps (k : Consts ℝ) (m : Models ℝ) (eps2 : ℝ) (roche : Fin n → Fin n → ℝ) (dt : ℝ) :
    Universe ℝ n → Universe ℝ n → Prop
  | refl (a : Universe ℝ n) : Steps k m eps2 roche dt a a
  | step {a b c : Universe ℝ n} (t : ℝ) : Steps k m eps2 roche dt a b →
    leapfrogStep k m eps2 roche dt (dt / 2) t b = some c → Steps k m eps2 roche dt a c

/-- The total linear momentum of a closed system with tides, flattening, relativity, winds and evolving bodies
does not change in any number of steps. -/
theorem C96_momentum (hc : Closed u) (h : Steps k m eps2 roche dt u u') :
    ∑ i, (u'.particles i).mass • (u'.particles i).inertialVelocity
      = ∑ i, (u.particles i).mass • (u.particles i).inertialVelocity := by
  have key : Closed u' ∧ ∑ i, (u'.particles i).mass • (u'.particles i).inertialVelocity
      = ∑ i, (u.particles i).mass • (u.particles i).inertialVelocity := by
    induction h with
    | refl => exact ⟨hc, rfl⟩
    | step time _ hs ih =>
      obtain ⟨a, -, b⟩ := momentum_step ih.1 hs
      exact ⟨a, b.trans ih.2⟩
  exact key.2

/-- Masses, identifiers, effects with their parameters and the type of evolution never change. -/
theorem C96_settings (h : Steps k m eps2 roche dt u u') (i : Fin n) :
    (u'.particles i).id = (u.particles i).id ∧ (u'.particles i).mass = (u.particles i).mass
      ∧ (u'.particles i).massG = (u.particles i).massG
      ∧ (u'.particles i).evolution = (u.particles i).evolution
      ∧ (u'.particles i).tides.effect = (u.particles i).tides.effect
      ∧ (u'.particles i).flattening.effect = (u.particles i).flattening.effect
      ∧ (u'.particles i).gr.effect = (u.particles i).gr.effect
      ∧ (u'.particles i).disk.effect = (u.particles i).disk.effect
      ∧ (u'.particles i).wind.interaction = (u.particles i).wind.interaction
      ∧ (u'.particles i).wind.kFactor = (u.particles i).wind.kFactor := by
  have key : Same settings u'.particles u.particles := by
    induction h with
    | refl => exact Same.refl _
    | step time _ hs ih =>
      obtain ⟨u1, u3, a, h1, ha, h3, h4⟩ := leapfrogStep_parts hs
      refine Same.trans ?_ ih
      rw [h4]
      exact ((evaluation_settings h3).trans (inertialToHeliocentric_settings _)).trans
        ((evaluation_settings h1).trans (inertialToHeliocentric_settings _))
  have e {A : Type} (f : Particle ℝ → A) (hf : ∀ q, f q = f (settings q)) : f (u'.particles i) = f (u.particles i) :=
    settings_field f hf key i
  exact ⟨e _ (fun _ => rfl), e _ (fun _ => rfl), e _ (fun _ => rfl), e _ (fun _ => rfl),
    e (fun q => q.tides.effect) (fun _ => rfl), e (fun q => q.flattening.effect) (fun _ => rfl),
    e (fun q => q.gr.effect) (fun _ => rfl), e (fun q => q.disk.effect) (fun _ => rfl),
    e (fun q => q.wind.interaction) (fun _ => rfl), e (fun q => q.wind.kFactor) (fun _ => rfl)⟩

end

/-! ### Examples -/

section
variable (k : Consts ℝ) (m : Models ℝ)

/-- Without evolution an evaluation keeps radii and moments of inertia. -/
theorem evaluation_radius {n : Nat} {eps2 time : ℝ} {evolution dL acc : Bool} {ignore : Ignore}
    {u u' : Universe ℝ n} (he : (evolution && u.consider.evolution) = false)
    (h : calculateAdditionalEffects k m eps2 time evolution dL acc ignore u = some u') (i : Fin n) :
    (u'.particles i).radius = (u.particles i).radius
      ∧ (u'.particles i).momentOfInertia = (u.particles i).momentOfInertia
      ∧ (u'.particles i).spin = (u.particles i).angularMomentum.sdiv (u.particles i).momentOfInertia := by
  unfold calculateAdditionalEffects at h
  split at h
  · simp at h
  rename_i u1 h1
  split at h
  · simp at h
  rename_i u2 h2
  have a := initializeAll_core h1 i
  have a1 : (u1.particles i).radius = (u.particles i).radius := by
    have := congrArg Particle.radius a; exact this
  have a2 : (u1.particles i).momentOfInertia = (u.particles i).momentOfInertia := by
    have := congrArg Particle.momentOfInertia a; exact this
  have a3 : (u1.particles i).angularMomentum = (u.particles i).angularMomentum := by
    have := congrArg Particle.angularMomentum a; exact this
  obtain ⟨-, -, -, -, -, -, -, -, -, -, c, -⟩ := initializeAll_stages h1
  obtain ⟨b1, -⟩ := calculateSpinAndEvolving_step h2
  obtain ⟨I, i1, -, i2, -⟩ := spinAndEvolving_spin (b1 i)
  rw [c] at i2
  obtain ⟨j1, j2, j3⟩ := i2 he
  obtain ⟨-, -, -, pd, f, -, -, g⟩ := effects_totals h
  have strip : ∀ {A : Type} (f : Particle ℝ → A), (∀ q, f (totalDL q) = f q)
      → (∀ q, f (addAccelerations u2.consider q) = f q) → f (u'.particles i) = f (pd i) := by
    intro A f hf hg
    rw [g i]
    dsimp only
    split <;> split <;> simp only [hf, hg]
  have f1 : (pd i).radius = (u2.particles i).radius := by have := congrArg Particle.radius (f i); exact this
  have f2 : (pd i).momentOfInertia = (u2.particles i).momentOfInertia := by
    have := congrArg Particle.momentOfInertia (f i); exact this
  have f3 : (pd i).spin = (u2.particles i).spin := by have := congrArg Particle.spin (f i); exact this
  refine ⟨?_, ?_, ?_⟩
  · rw [strip Particle.radius (fun _ => rfl) (fun _ => rfl), f1, j3, a1]
  · rw [strip Particle.momentOfInertia (fun _ => rfl) (fun _ => rfl), f2, j2, a2]
  · rw [strip Particle.spin (fun _ => rfl) (fun _ => rfl), f3, i1, j1, a2, a3]

theorem relativisticUniverse_quiet (g : GrImplementation) (l0 l1 : Axes ℝ) :
    NoOffTorque (relativisticUniverse g l0 l1) := by
  constructor <;> intro _ i <;> by_cases hi : i = 0 <;> simp [relativisticUniverse, hi, blank] <;> rfl

theorem relativisticUniverse_closed (l0 l1 : Axes ℝ) : Closed (relativisticUniverse .kidder1995 l0 l1) where
  hosts := by constructor <;> simp [relativisticUniverse]
  grHosts := relativisticUniverse_ok _ _ _
  disk := rfl
  mass i := by rw [relativisticUniverse_mass]; norm_num
  tides x := by simp [relativisticUniverse] at x
  flattening x := by simp [relativisticUniverse] at x
  gr _ := ⟨0, rfl, rfl, fun i hi => relativisticUniverse_orbiting _ _ _ i hi⟩

/-- The example makes a step. -/
theorem relativisticUniverse_step (g : GrImplementation) (l0 l1 : Axes ℝ) :
    ∃ u', leapfrogStep k m 0 (fun _ _ => 0) 1 (1 / 2) 0 (relativisticUniverse g l0 l1) = some u' := by
  have defined : ∀ (v : Universe ℝ 2) (t : ℝ) (acc : Bool), v.consider = ⟨false, false, true, false, false, false⟩ →
      v.hosts = ⟨0, none, none, some 0, none, true, false, false, true, false⟩ →
      (∀ j, (v.particles j).momentOfInertia = 1) →
      ∃ w, calculateAdditionalEffects k m 0 t true true acc .none (inertialToHeliocentric v) = some w := by
    intro v t acc hc hh hI
    have hh' : HasHosts (inertialToHeliocentric v) := by
      constructor <;> simp [inertialToHeliocentric, hc, hh]
    have hn := (additionalEffects_none (k := k) (m := m) (eps2 := 0) (time := t) (evolution := true)
      (dL := true) (acc := acc) (ignore := .none) hh' (by simp [inertialToHeliocentric, hc])).not
    refine Option.ne_none_iff_exists'.1 (hn.2 ?_)
    rintro ⟨j, hj⟩
    rw [helio_field Particle.momentOfInertia (fun _ => rfl) (fun _ _ => rfl), hI] at hj
    simp at hj
  obtain ⟨u1, h1⟩ := defined (relativisticUniverse g l0 l1) 0 false rfl rfl
    (fun j => by by_cases hj : j = 0 <;> simp [relativisticUniverse, hj])
  obtain ⟨c1, -, t1, f1, -, -⟩ := evaluation_totals h1
  have I1 : ∀ j, (u1.particles j).momentOfInertia = 1 := fun j => by
    rw [(evaluation_radius k m (by simp [inertialToHeliocentric, relativisticUniverse]) h1 j).2.1,
      helio_field Particle.momentOfInertia (fun _ => rfl) (fun _ _ => rfl)]
    by_cases hj : j = 0 <;> simp [relativisticUniverse, hj]
  have x0 : (u1.particles 0).inertialPosition + (1 / 2 : ℝ) • (u1.particles 0).inertialVelocity = 0 := by
    rw [fixed_field Particle.inertialPosition (fun _ => rfl) f1,
      fixed_field Particle.inertialVelocity (fun _ => rfl) f1,
      helio_field Particle.inertialPosition (fun _ => rfl) (fun _ _ => rfl),
      helio_field Particle.inertialVelocity (fun _ => rfl) (fun _ _ => rfl)]
    simp [relativisticUniverse, blank]
  have x1 : (u1.particles 1).inertialPosition + (1 / 2 : ℝ) • (u1.particles 1).inertialVelocity = ⟨1, 1 / 2, 0⟩ := by
    rw [fixed_field Particle.inertialPosition (fun _ => rfl) f1,
      fixed_field Particle.inertialVelocity (fun _ => rfl) f1,
      helio_field Particle.inertialPosition (fun _ => rfl) (fun _ _ => rfl),
      helio_field Particle.inertialVelocity (fun _ => rfl) (fun _ _ => rfl)]
    ext <;> simp [relativisticUniverse, blank]
  have R : ∀ j, (u1.particles j).radius = 0 := fun j => by
    rw [(evaluation_radius k m (by simp [inertialToHeliocentric, relativisticUniverse]) h1 j).1,
      helio_field Particle.radius (fun _ => rfl) (fun _ _ => rfl)]
    by_cases hj : j = 0 <;> simp [relativisticUniverse, hj, blank]
  obtain ⟨a, ha⟩ : ∃ a, Gravity.gravity k.g (fun i => bodyOf ((drift (1 / 2) u1).particles i)) (fun _ _ => 0)
      .none u1.hosts.mostMassive = .ok a := by
    rw [Gravity.C45_partial_goes_on_iff _ _ _ _ _ Gravity.maxDistance2_pos]
    intro i j hij
    obtain ⟨rfl, rfl⟩ : i = 0 ∧ j = 1 := by omega
    have d : Gravity.distance2 (bodyOf ((drift (1 / 2) u1).particles 0)) (bodyOf ((drift (1 / 2) u1).particles 1))
        = 5 / 4 := by
      show Axes.norm2 (((u1.particles 0).inertialPosition + (1 / 2 : ℝ) • (u1.particles 0).inertialVelocity)
        - ((u1.particles 1).inertialPosition + (1 / 2 : ℝ) • (u1.particles 1).inertialVelocity)) = 5 / 4
      rw [x0, x1]
      simp [Axes.norm2, Axes.dot]
      norm_num
    have r : ∀ j, (bodyOf ((drift (1 / 2) u1).particles j)).radius = 0 := R
    refine ⟨?_, ?_, ?_⟩
    · unfold Gravity.InsideRoche
      rw [d]
      simp
    · unfold Gravity.Overlap
      rw [d, r, r]
      simp
    · rintro ⟨-, hf⟩
      unfold Gravity.Far at hf
      rw [d] at hf
      simp [Gravity.maxDistance2] at hf
      norm_num at hf
  obtain ⟨u3, h3⟩ := defined { drift (1 / 2) u1 with
    particles := fun i => { (drift (1 / 2) u1).particles i with inertialAcceleration := a i } } (0 + 1 / 2) true
    (c1.trans rfl) (t1.trans rfl) I1
  refine ⟨kickDrift 1 (1 / 2) { u3 with particles := fun i => applyAccelerations (u3.particles i) }, ?_⟩
  unfold leapfrogStep universeGravity
  rw [h1]
  dsimp only
  have ha' : Gravity.gravity k.g (fun i => bodyOf ((drift (1 / 2) u1).particles i)) (fun _ _ => 0)
      .none (drift (1 / 2) u1).hosts.mostMassive = .ok a := ha
  rw [ha']
  dsimp only
  rw [h3]

/-- The spin of the second of two bodies is in the plane of the orbit: the relativistic torque is not zero. -/
theorem midpoint_torque {u u' : Universe ℝ 2} (hg : k.g ≠ 0) (hc : k.c2 ≠ 0) (q : NoOffTorque u)
    (hok : GrHostOk u) (ct : u.consider = ⟨false, false, true, false, false, false⟩)
    (hh : u.hosts = ⟨0, none, none, some 0, none, true, false, false, true, false⟩)
    (gi : u.grImplementation = .kidder1995) (e0 : (u.particles 0).gr.effect = .central .kidder1995)
    (e1 : (u.particles 1).gr.effect = .orbiting) (hm : ∀ j, (u.particles j).mass = 1)
    (hI : ∀ j, (u.particles j).momentOfInertia = 1)
    (x0 : (u.particles 0).inertialPosition = 0) (x1 : (u.particles 1).inertialPosition = ⟨1, 0, 0⟩)
    (v0 : (u.particles 0).inertialVelocity = 0) (v1 : (u.particles 1).inertialVelocity = ⟨0, 1, 0⟩)
    (l0 : (u.particles 0).angularMomentum = 0) (l1 : (u.particles 1).angularMomentum = ⟨1, 0, 0⟩)
    (hu : leapfrogStep k m 0 (fun _ _ => 0) 1 (1 / 2) 0 u = some u') :
    (u'.particles 1).gr.dAngularMomentumDt ≠ 0 := by
  obtain ⟨u1, u3, a, h1, ha, h3, h4⟩ := leapfrogStep_parts hu
  obtain ⟨c1, -, t1, f1, -, -⟩ := evaluation_totals h1
  have s1 := (evaluation_settings h1).trans (inertialToHeliocentric_settings u)
  have X : ∀ j, (u1.particles j).inertialPosition = (u.particles j).inertialPosition := fun j => by
    rw [fixed_field Particle.inertialPosition (fun _ => rfl) f1,
      helio_field Particle.inertialPosition (fun _ => rfl) (fun _ _ => rfl)]
  have V : ∀ j, (u1.particles j).inertialVelocity = (u.particles j).inertialVelocity := fun j => by
    rw [fixed_field Particle.inertialVelocity (fun _ => rfl) f1,
      helio_field Particle.inertialVelocity (fun _ => rfl) (fun _ _ => rfl)]
  have L : ∀ j, (u1.particles j).angularMomentum = (u.particles j).angularMomentum := fun j => by
    rw [fixed_field Particle.angularMomentum (fun _ => rfl) f1,
      helio_field Particle.angularMomentum (fun _ => rfl) (fun _ _ => rfl)]
  have ct' : (inertialToHeliocentric u).consider = ⟨false, false, true, false, false, false⟩ := ct
  have ev0 : (true && (inertialToHeliocentric u).consider.evolution) = false := by rw [ct']; rfl
  have I1 : ∀ j, (u1.particles j).momentOfInertia = 1 := fun j => by
    rw [(evaluation_radius k m ev0 h1 j).2.1,
      helio_field Particle.momentOfInertia (fun _ => rfl) (fun _ _ => rfl), hI]
  have gr0 : ∀ j, ((inertialToHeliocentric u).particles j).gr = (u.particles j).gr :=
    helio_field Particle.gr (fun _ => rfl) (fun _ _ => rfl) u
  have n0 : NoOffTorque (inertialToHeliocentric u) :=
    ⟨fun x j => by rw [helio_field Particle.tides (fun _ => rfl) (fun _ _ => rfl)]; exact q.tides x j,
      fun x j => by rw [helio_field Particle.flattening (fun _ => rfl) (fun _ _ => rfl)]; exact q.flattening x j,
      fun x j => by rw [gr0]; exact q.gr x j,
      fun x j => by rw [helio_field Particle.wind (fun _ => rfl) (fun _ _ => rfl)]; exact q.wind x j⟩
  have T1 : ∀ j, (u1.particles j).dAngularMomentumDt = 0 := fun j => by
    have t1 := C95_violated n0 ⟨hok.gr, hok.allGr⟩ (h := 0) (by show u.hosts.gr = some 0; rw [hh])
      (by show u.consider.gr = true; rw [ct]) gi (by rw [gr0]; exact e0) h1 j (by
        rw [gr0]
        match j with
        | 0 => exact Or.inl rfl
        | 1 => exact Or.inr e1)
    rw [t1, ct']
    simp
  obtain ⟨u2, hu2, c2, t2, p2, w2, m2, I2, L2, hel2, g2⟩ : ∃ u2 : Universe ℝ 2,
      calculateAdditionalEffects k m 0 (0 + 1 / 2) true true true .none (inertialToHeliocentric u2) = some u3
      ∧ u2.consider = u.consider ∧ u2.hosts = u.hosts
      ∧ (∀ j, (u2.particles j).inertialPosition
        = (u.particles j).inertialPosition + (1 / 2 : ℝ) • (u.particles j).inertialVelocity)
      ∧ (∀ j, (u2.particles j).inertialVelocity = (u.particles j).inertialVelocity)
      ∧ (∀ j, (u2.particles j).mass = 1) ∧ (∀ j, (u2.particles j).momentOfInertia = 1)
      ∧ (∀ j, (u2.particles j).angularMomentum = (u.particles j).angularMomentum)
      ∧ (u2.particles 0).heliocentricVelocity = 0
      ∧ (∀ j, (u2.particles j).gr.effect = (u.particles j).gr.effect) := by
    refine ⟨_, h3, c1, t1, fun j => ?_, fun j => V j, fun j => ?_, fun j => I1 j, fun j => ?_, ?_, fun j => ?_⟩
    · rw [← X, ← V]; rfl
    · rw [← hm j]; exact settings_field Particle.mass (fun _ => rfl) s1 j
    · have : (u1.particles j).angularMomentum + smulRight (u1.particles j).dAngularMomentumDt (1 / 2)
          = (u.particles j).angularMomentum := by
        rw [T1, L]
        ext <;> simp [smulRight]
      exact this
    · show (u1.particles 0).heliocentricVelocity = 0
      rw [fixed_field Particle.heliocentricVelocity (fun _ => rfl) f1]
      show (mapHost u.hosts.mostMassive zeroHeliocentric _ 0).heliocentricVelocity = 0
      rw [hh, mapHost_host]
      rfl
    · exact settings_field (fun q => q.gr.effect) (fun _ => rfl) s1 j
  have sp : ∀ j, (u3.particles j).momentOfInertia • (u3.particles j).spin = (u.particles j).angularMomentum :=
    fun j => by
    have ev : (true && (inertialToHeliocentric u2).consider.evolution) = false := by
      have : (inertialToHeliocentric u2).consider = ⟨false, false, true, false, false, false⟩ := c2.trans ct
      rw [this]; rfl
    obtain ⟨-, r1, r2⟩ := evaluation_radius k m ev hu2 j
    rw [r1, r2, helio_field Particle.momentOfInertia (fun _ => rfl) (fun _ _ => rfl),
      helio_field Particle.angularMomentum (fun _ => rfl) (fun _ _ => rfl), I2, L2]
    ext <;> simp [Axes.sdiv]
  have q0 : (u2.particles 0).inertialPosition = 0 := by
    rw [p2, x0, v0]; simp
  have q1 : (u2.particles 1).inertialPosition = ⟨1, 1 / 2, 0⟩ := by
    rw [p2, x1, v1]; ext <;> simp
  have w0 : (u2.particles 0).inertialVelocity = 0 := by rw [w2, v0]
  have w1 : (u2.particles 1).inertialVelocity = ⟨0, 1, 0⟩ := by rw [w2, v1]
  obtain ⟨-, -, -, -, e⟩ := C64_exact_partial (h := 0)
    ⟨by rw [c2, t2]; exact hok.gr, by rw [c2, t2]; exact hok.allGr⟩
    (by rw [t2, hh]) (by rw [c2, ct]) (by rw [g2]; exact e0) (by rw [t2, hh]; exact hel2) hc hu2 1 (by decide)
    (by rw [g2]; exact e1)
    (by rw [q0, q1]; intro x; have := congrArg Axes.x x; simp at this)
    (by rw [w0, w1]; intro x; have := congrArg Axes.y x; simp at this)
  have qq : (u'.particles 1).gr = (u3.particles 1).gr := by rw [h4]; rfl
  rw [qq, e, q0, q1, w0, w1, sub_zero, sub_zero]
  beta_reduce
  rw [sp 0, sp 1, m2, m2, l0, l1]
  have n : (⟨1, 1 / 2, 0⟩ : Axes ℝ).norm2 = 5 / 4 := by simp [Axes.norm2, Axes.dot]; norm_num
  have hd : Real.sqrt (5 / 4) ≠ 0 := (Real.sqrt_pos.2 (by norm_num)).ne'
  unfold publishedPrecession
  dsimp only
  rw [n]
  generalize Real.sqrt (5 / 4) = d at hd
  clear * - hg hc hd
  generalize k.g = g0 at hg
  generalize k.c2 = c0 at hc
  intro x
  have y := congrArg Axes.y x
  have : g0 / c0 * (7 / 4) = 0 := by
    refine Eq.trans ?_ (y.trans Axes.zero_y)
    simp [Axes.cross, Axes.dot]
    field_simp
    norm_num
  exact (mul_ne_zero (div_ne_zero hg hc) (by norm_num)) this

/-- Two bodies of mass one, the spin of the second one in the plane of the orbit: the spin precesses in a step
of one day, by half of what it should. -/
theorem C95_violated_half (hg : k.g ≠ 0) (hc : k.c2 ≠ 0) : ∃ u',
    leapfrogStep k m 0 (fun _ _ => 0) 1 (1 / 2) 0 (relativisticUniverse .kidder1995 0 ⟨1, 0, 0⟩) = some u'
      ∧ (u'.particles 1).gr.dAngularMomentumDt ≠ 0
      ∧ (u'.particles 1).angularMomentum
        = ⟨1, 0, 0⟩ + (1 / 2 : ℝ) • (u'.particles 1).gr.dAngularMomentumDt := by
  obtain ⟨u', hu⟩ := relativisticUniverse_step k m .kidder1995 0 ⟨1, 0, 0⟩
  have half := C95_violated_step (relativisticUniverse_quiet _ _ _) (relativisticUniverse_ok _ _ _) rfl rfl rfl rfl
    hu 1 (Or.inr rfl)
  have l0 : ((relativisticUniverse .kidder1995 0 ⟨1, 0, 0⟩).particles 1).angularMomentum = ⟨1, 0, 0⟩ := rfl
  refine ⟨u', hu, ?_, by rw [← half, l0]; abel⟩
  exact midpoint_torque k m hg hc (relativisticUniverse_quiet _ _ _) (relativisticUniverse_ok _ _ _) rfl rfl rfl rfl
    rfl (relativisticUniverse_mass _ _ _) (fun j => by by_cases hj : j = 0 <;> simp [relativisticUniverse, hj])
    (by simp [relativisticUniverse, blank]) (by simp [relativisticUniverse])
    (by simp [relativisticUniverse, blank]) (by simp [relativisticUniverse])
    (by simp [relativisticUniverse]) (by simp [relativisticUniverse]) hu

/-- The same two bodies keep their total momentum. -/
example : ∃ u', Steps k m 0 (fun _ _ => 0) 1 (relativisticUniverse .kidder1995 ⟨0, 1, 0⟩ ⟨1, 0, 0⟩) u'
    ∧ u' ≠ relativisticUniverse .kidder1995 ⟨0, 1, 0⟩ ⟨1, 0, 0⟩
    ∧ ∑ i, (u'.particles i).mass • (u'.particles i).inertialVelocity = ⟨0, 1, 0⟩ := by
  obtain ⟨u', hu⟩ := relativisticUniverse_step k m .kidder1995 ⟨0, 1, 0⟩ ⟨1, 0, 0⟩
  have st : Steps k m 0 (fun _ _ => 0) 1 (relativisticUniverse .kidder1995 ⟨0, 1, 0⟩ ⟨1, 0, 0⟩) u' :=
    .step 0 (.refl _) hu
  refine ⟨u', st, fun e => ?_, ?_⟩
  · obtain ⟨_, -, f⟩ := C96_step hu
    have f0 := (f 0).2.2.1
    have f1 := (f 1).2.2.1
    rw [e] at f1
    have y := congrArg Axes.y f1
    simp [relativisticUniverse, blank] at y
    norm_num at y
  · rw [C96_momentum (relativisticUniverse_closed _ _) st, Fin.sum_univ_two]
    ext <;> simp [relativisticUniverse, blank]

end
end Posidonius.Univ
