import Verif.Props.WHFastUniverse
import Verif.Props.WHFastAngular

/-! # C109: WHFast with two bodies -/

namespace Posidonius.WHFast
open Posidonius

/-- Position and velocity of a body relative to another. -/
noncomputable def relative (star p : Body ℝ) : Axes ℝ × Axes ℝ := (p.position - star.position, p.velocity - star.velocity)

/-- In Jacobi coordinates and in those of WHDS a single planet has its motion relative to the star. -/
theorem toAlternative_single {c : Coordinates} (hc : c ≠ .democraticHeliocentric) {u : Sys ℝ} (hu : Massive u) {p : Body ℝ}
    (hp : u.planets = [p]) :
    (toAlternative c u).planets = [⟨p.mass, p.massG, (relative u.star p).1, (relative u.star p).2⟩] := by
  have h0 : 0 < u.star.mass := hu.1
  have h1 : 0 < p.mass := hu.2 p (by rw [hp]; simp)
  cases c
  · show (toJacobi u).planets = _
    unfold toJacobi
    rw [hp]
    simp only [jacobiLoop, scaled_eq, lit_real, relative, List.cons.injEq, Alt.mk.injEq, true_and, and_true]
    push_cast
    rw [smul_smul, smul_smul, one_div, inv_mul_cancel₀ h0.ne', one_smul, one_smul]
    exact ⟨rfl, rfl⟩
  · exact absurd rfl hc
  · show (toHelio true u).planets = _
    unfold toHelio
    rw [centre_eq, hp]
    simp only [List.map_cons, List.map_nil, if_true, scaled_eq, relative, List.cons.injEq, Alt.mk.injEq, true_and, and_true]
    have e1 : u.weighted Body.velocity = u.star.mass • u.star.velocity + p.mass • p.velocity := by
      simp [Sys.weighted, hp]
    have e2 : u.mass = u.star.mass + p.mass := by simp [Sys.mass, totalMass, hp]
    rw [e1, e2]
    ext <;> simp <;> field_simp <;> ring

theorem jumpStep_single {c : Coordinates} (hc : c ≠ .democraticHeliocentric) (dt : ℝ) {u : Sys ℝ} {p : Body ℝ}
    (hp : u.planets = [p]) {a : AltSys ℝ} {x : Alt ℝ} (ha : a.planets = [x]) : (jumpStep c dt u a).planets = [x] := by
  cases c
  · exact ha
  · exact absurd rfl hc
  · simp only [jumpStep, whdsJump, ha, hp, List.zip_cons_cons, List.zip_nil_right, List.foldl_cons, List.foldl_nil,
      List.map_cons, List.map_nil, List.cons.injEq, and_true]
    have e : (Axes.zero + (p.mass • x.velocity).sdiv (u.star.mass + p.mass)
        - (p.mass • x.velocity).sdiv (u.star.mass + p.mass) : Axes ℝ) = 0 := by
      ext <;> simp
    rw [e]
    obtain ⟨xm, xg, xp, xv⟩ := x
    simp

theorem interactionStep_single {c : Coordinates} (hc : c ≠ .democraticHeliocentric) (g dt : ℝ) {u : Sys ℝ} {p : Body ℝ}
    (hp : u.planets = [p]) (h0 : u.star.acceleration = 0) (h1 : p.acceleration = 0) {a : AltSys ℝ} {x : Alt ℝ}
    (ha : a.planets = [x]) : (interactionStep c g dt u a).planets = [x] := by
  obtain ⟨xm, xg, xp, xv⟩ := x
  cases c
  · simp [interactionStep, jacobiInteraction, ha, jacobiAccelerations, hp, jacobiAccelerationLoop, jacobiKick, h0, h1]
  · exact absurd rfl hc
  · simp only [interactionStep, whdsInteraction, ha, hp, List.zip_cons_cons, List.zip_nil_right, List.map_cons, List.map_nil,
      List.cons.injEq, and_true, h1, Alt.mk.injEq, true_and]
    ext <;> simp

theorem keplerSteps_single {c : Coordinates} (hc : c ≠ .democraticHeliocentric) {fuel : ℕ} {half : ℝ} {w : Sys ℝ} {s t : AltSys ℝ}
    {x : Alt ℝ} (hs : keplerSteps c fuel half w s = some t) (hx : s.planets = [x]) :
    ∃ res, keplerStep fuel (w.star.massG + x.massG) half x.position x.velocity = some res
      ∧ t.planets = [{ x with position := res.1, velocity := res.2 }] := by
  unfold keplerSteps at hs
  rw [hx] at hs
  split at hs
  · cases hs
  · next pl e =>
    cases hs
    cases c
    case democraticHeliocentric => exact absurd rfl hc
    all_goals
      unfold keplerPlanets at e
      dsimp only at e
      unfold Alt.kepler keplerPlanets at e
      split at e
      · next b s e1 e2 =>
        cases e
        cases e2
        split at e1
        · cases e1
        · next r' v' er =>
          cases e1
          exact ⟨(r', v'), er, rfl⟩
      · cases e

theorem Like.single {w v : Sys ℝ} (h : Like w v) {p : Body ℝ} (hp : v.planets = [p]) :
    ∃ q, w.planets = [q] ∧ q.mass = p.mass ∧ q.massG = p.massG ∧ w.star.massG = v.star.massG := by
  obtain ⟨-, h1, h2⟩ := h
  rw [hp] at h2
  generalize w.planets = l at h2
  cases h2 with
  | cons e t =>
    cases t
    exact ⟨_, rfl, e.1, e.2, h1⟩

/-- **C109, a step**: without other forces, a step of a star and a planet consists of two Kepler steps of half the time
for the motion of the planet relative to the star. -/
theorem C109_step {c : Coordinates} (hc : c ≠ .democraticHeliocentric) {fuel : ℕ} {g dt half : ℝ}
    {gravity : Sys ℝ → Option (Sys ℝ)} {u u' : Sys ℝ} (hu : Massive u) {p : Body ℝ} (hp : u.planets = [p])
    (hg : ∀ v w, v.planets.length = 1 → gravity v = some w → SameMotion w v ∧ ∀ b ∈ w.bodies, b.acceleration = 0)
    (h : step c fuel g dt half gravity u = some u') :
    ∃ p' mid, u'.planets = [p'] ∧ u'.star.massG = u.star.massG ∧ p'.massG = p.massG
      ∧ keplerStep fuel (u.star.massG + p.massG) half (relative u.star p).1 (relative u.star p).2 = some mid
      ∧ keplerStep fuel (u.star.massG + p.massG) half mid.1 mid.2 = some (relative u'.star p') := by
  unfold step at h
  split at h
  · cases h
  · next a u1 e1 =>
    split at h
    · cases h
    · next u2 e2 =>
      unfold part1 at e1
      split at e1
      · cases e1
      · next b eb =>
        cases e1
        unfold part2 at h
        dsimp only at h
        split at h
        · cases h
        · next d ed =>
          cases h
          have m0 := toAlternative_matches c hu
          have m1 := keplerSteps_matches m0 eb
          have m2 := jumpStep_matches c half m1
          have l1 := fromAlternative_like c m2
          obtain ⟨g1, g2⟩ := hg _ _ (by obtain ⟨q, hq, -⟩ := l1.single hp; rw [hq]; rfl) e2
          have l2 := g1.1.trans l1
          have m3 := m2.like l2
          have m4 := interactionStep_matches c g dt m3
          have m5 := jumpStep_matches c half m4
          have m6 := keplerSteps_matches m5 ed
          have hu2 := l2.massive hu
          have t0 := toAlternative_single hc hu hp
          obtain ⟨mid, k1, b1⟩ := keplerSteps_single hc eb t0
          have b2 := jumpStep_single hc half hp b1
          obtain ⟨p2, hp2, -, q2, q3⟩ := l2.single hp
          have b3 := interactionStep_single hc g dt hp2 (g2 _ (by simp [Sys.bodies])) (g2 _ (by simp [Sys.bodies, hp2])) b2
          have b4 := jumpStep_single hc half hp2 b3
          obtain ⟨last, k2, b5⟩ := keplerSteps_single hc ed b4
          have l3 := fromAlternative_like c m6
          obtain ⟨p3, hp3, -, q4, q5⟩ := l3.single hp2
          have t1 := toAlternative_single hc (l3.massive hu2) hp3
          rw [toAlternative_fromAlternative c m6 hu2, b5, List.cons.injEq] at t1
          have t2 := t1.1
          refine ⟨p3, mid, hp3, q5.trans q3, q4.trans q2, k1, ?_⟩
          rw [q3] at k2
          rw [k2]
          injection t2 with _ _ t3 t4
          exact congrArg some (Prod.ext t3 t4)

end Posidonius.WHFast

namespace Posidonius.Univ
open Gravity (Ignore)
open WHFast (keplerStep)

variable {k : Consts ℝ} {m : Models ℝ} {eps2 : ℝ} {c : WHFast.Coordinates}

/-- No effect exerts forces. -/
def Forceless {n : ℕ} (u : Universe ℝ n) : Prop :=
  u.consider.tides = false ∧ u.consider.flattening = false ∧ u.consider.gr = false ∧ u.consider.disk = false

theorem errorsOf_zero (spin : Bool) : ∀ (os fs cs es : List (WHFast.Motion ℝ)),
    (∀ e ∈ es, e.angular = 0) → (∀ e ∈ WHFast.errorsOf spin os fs cs es, spin = false → e.angular = 0)
  | [], _, _, _ => by intro _ e he; simp [WHFast.errorsOf] at he
  | _ :: _, [], _, _ => by intro _ e he; simp [WHFast.errorsOf] at he
  | _ :: _, _ :: _, [], _ => by intro _ e he; simp [WHFast.errorsOf] at he
  | _ :: _, _ :: _, _ :: _, [] => by intro _ e he; simp [WHFast.errorsOf] at he
  | o :: os, f :: fs, c :: cs, x :: es => by
    intro h e he hs
    simp only [WHFast.errorsOf, List.mem_cons] at he
    rcases he with rfl | he
    · simp only [WHFast.errorOf, hs, Bool.false_eq_true, if_false]
      exact h x (by simp)
    · exact errorsOf_zero spin os fs cs es (fun e he => h e (by simp [he])) e he hs

theorem whfastForced_errors {n : ℕ} {half : ℝ} {spin evolution : Bool} {r r' : WHFastRun ℝ n}
    (hz : ∀ e ∈ r.errors, e.velocity = 0 ∧ e.angular = 0)
    (h : whfastForced k m eps2 c half spin evolution r = some r') : ∀ e ∈ r'.errors, e.velocity = 0 ∧ e.angular = 0 := by
  unfold whfastForced at h
  split at h
  · cases h
  · next u final errors e =>
    cases h
    intro x hx
    have h1 := WHFast.C50_midpoint_exact _ _ _ _ _ _ _ _ _ _ e x hx
    refine ⟨h1.1, ?_⟩
    cases spin
    · unfold WHFast.midpoint at e
      split at e
      · cases e
      · cases e
        exact errorsOf_zero false _ _ _ _ (fun y hy => (hz y hy).2) x hx rfl
    · exact h1.2 rfl

theorem starFirst_two : ∀ {h o : Fin 2}, o ≠ h → starFirst h = [h, o] := by decide

/-- Gravity leaves out the only pair of two bodies. -/
theorem acceleration_two (g : ℝ) (p : Fin 2 → Gravity.Body ℝ) (h i : Fin 2) :
    Gravity.acceleration g p (ignored c) h i = 0 := by
  have key : ∀ (ig : Ignore), ig ≠ .none → ∀ (h i j : Fin 2), i ≠ j → Gravity.ignored ig h i j = true := by
    intro ig hig
    cases ig
    · exact absurd rfl hig
    · decide
    · decide
  have hig : ignored c ≠ .none := by cases c <;> simp [ignored]
  unfold Gravity.acceleration
  have : ∀ l : List (Fin 2), l.foldl (fun acc j => if i = j then acc else if Gravity.ignored (ignored c) h i j then acc
      else acc + Gravity.pairAcceleration g (p i) (p j)) Axes.zero = 0 := by
    intro l
    induction l with
    | nil => rfl
    | cons j l ih =>
      rw [List.foldl_cons]
      by_cases hij : i = j
      · rw [if_pos hij]; exact ih
      · rw [if_neg hij, if_pos (key _ hig h i j hij)]; exact ih
  exact this _

theorem whfastGravity_two {roche : Fin 2 → Fin 2 → ℝ} {u : Universe ℝ 2} {s w : WHFast.Sys ℝ} {p : WHFast.Body ℝ}
    (hp : s.planets = [p]) (h : whfastGravity k roche c u s = some w) :
    WHFast.SameMotion w s ∧ ∀ b ∈ w.bodies, b.acceleration = 0 := by
  have hl := whfastGravity_like h
  unfold whfastGravity at h
  split at h
  · cases h
  · next u1 e =>
    cases h
    have ha : ∀ i, (u1.particles i).inertialAcceleration = 0 := by
      unfold universeGravity at e
      split at e
      · cases e
      · next a ea =>
        cases e
        intro i
        have : a = Gravity.acceleration k.g (fun i => bodyOf ((withSystem s u).particles i)) (ignored c)
            (withSystem s u).hosts.mostMassive := by
          unfold Gravity.gravity at ea
          split at ea
          · cases ea
          · injection ea with ea
            exact ea.symm
        show a i = 0
        rw [this]
        exact acceleration_two k.g _ (withSystem s u).hosts.mostMassive i
    obtain ⟨o, ho⟩ : ∃ o : Fin 2, o ≠ u.hosts.mostMassive := exists_ne _
    rw [starFirst_two ho, hp]
    refine ⟨⟨by rw [starFirst_two ho, hp] at hl; exact hl, rfl, rfl, by rw [hp]; rfl⟩, fun b hb => ?_⟩
    rcases List.mem_cons.1 hb with rfl | hb
    · exact ha _
    · rcases List.mem_singleton.1 hb with rfl
      exact ha _

/-- Position and velocity of particle `i` relative to particle `h`. -/
noncomputable def relativeMotion {n : ℕ} (u : Universe ℝ n) (h i : Fin n) : Axes ℝ × Axes ℝ :=
  ((u.particles i).inertialPosition - (u.particles h).inertialPosition,
    (u.particles i).inertialVelocity - (u.particles h).inertialVelocity)

theorem system_two {u : Universe ℝ 2} {o : Fin 2} (ho : o ≠ u.hosts.mostMassive) :
    (system u).planets = [keplerBody (u.particles o)] := by
  have := starFirst_two ho
  unfold starFirst at this
  injection this with _ e
  unfold system
  dsimp only
  rw [e]
  rfl

theorem withSystem_two {u : Universe ℝ 2} {o : Fin 2} (ho : o ≠ u.hosts.mostMassive) {s : WHFast.Sys ℝ} {p : WHFast.Body ℝ}
    (hp : s.planets = [p]) : relativeMotion (withSystem s u) u.hosts.mostMassive o = WHFast.relative s.star p := by
  have e := starFirst_two ho
  simp only [relativeMotion, withSystem, entry, e, WHFast.Sys.bodies, hp, WHFast.relative]
  simp [ho.symm]

/-- One iteration of WHFast with two bodies and no other forces. -/
theorem whfastStep_two {roche : Fin 2 → Fin 2 → ℝ} (hc : c ≠ .democraticHeliocentric) {dt half : ℝ} (hh : half + half = dt)
    {r r' : WHFastRun ℝ 2} (hf : Forceless r.world)
    (hm : ∀ i, 0 < (r.world.particles i).mass) (hl : r.errors.length = 2)
    (hz : ∀ e ∈ r.errors, e.velocity = 0 ∧ e.angular = 0) {h o : Fin 2} (hh' : h = r.world.hosts.mostMassive) (ho : o ≠ h)
    (hs : WHFastStep k m eps2 roche c dt half r r') :
    (∀ e ∈ r'.errors, e.velocity = 0 ∧ e.angular = 0)
      ∧ (∃ fuel mid, keplerStep fuel ((r.world.particles h).massG + (r.world.particles o).massG) half
            (relativeMotion r.world h o).1 (relativeMotion r.world h o).2 = some mid
          ∧ keplerStep fuel ((r.world.particles h).massG + (r.world.particles o).massG) half mid.1 mid.2
            = some (relativeMotion r'.world h o))
      ∧ massSum r'.world Particle.inertialVelocity = massSum r.world Particle.inertialVelocity
      ∧ massSum r'.world Particle.inertialPosition
        = massSum r.world Particle.inertialPosition + dt • massSum r.world Particle.inertialVelocity
      ∧ r'.time = r.time + dt := by
  obtain ⟨fuel, record, hs⟩ := hs
  obtain ⟨u, r1, s, r2, hu, h1, h2, h3, rfl⟩ := whfastStep_parts hs
  obtain ⟨au, pu, -⟩ := observed_parts hu
  have xu : ∀ i, (u.particles i).inertialPosition = (r.world.particles i).inertialPosition := fun i =>
    congrArg Ias15.Place.position (pu i)
  have yu : ∀ i, (u.particles i).inertialVelocity = (r.world.particles i).inertialVelocity := fun i =>
    congrArg Ias15.Place.velocity (pu i)
  have still : ∀ {q q' : WHFastRun ℝ 2} {b : Bool}, Alike q.world r.world → q.errors.length = 2 →
      (∀ e ∈ q.errors, e.velocity = 0 ∧ e.angular = 0) →
      whfastForced k m eps2 c half (integrateSpin u) b q = some q' →
      ∀ i, (q'.world.particles i).inertialPosition = (q.world.particles i).inertialPosition
        ∧ (q'.world.particles i).inertialVelocity = (q.world.particles i).inertialVelocity := by
    intro q q' b aq lq zq hq i
    obtain ⟨e1, e2, -⟩ := C98_forced lq zq hq i
    refine ⟨e1, ?_⟩
    rw [e2, aq.consider]
    simp [additional, hf.1, hf.2.1, hf.2.2.1, hf.2.2.2]
  obtain ⟨a1, p1, -, l1⟩ := whfastForced_parts (by exact hl) h1
  have s1 := still (q := { r with world := u }) au hl hz h1
  have z1 := whfastForced_errors (r := { r with world := u }) hz h1
  have a1' : Alike r1.world r.world := a1.trans au
  have hmm : r1.world.hosts.mostMassive = h := by rw [a1'.hosts]; exact hh'.symm
  have ho1 : o ≠ r1.world.hosts.mostMassive := by rw [hmm]; exact ho
  have m1 : ∀ i, (r1.world.particles i).mass = (r.world.particles i).mass := fun i => a1'.field _ (fun _ => rfl) i
  have g1 : ∀ i, (r1.world.particles i).massG = (r.world.particles i).massG := fun i => a1'.field _ (fun _ => rfl) i
  have massive : WHFast.Massive (system r1.world) := by
    refine ⟨?_, ?_⟩
    · show 0 < (r1.world.particles _).mass
      rw [m1]; exact hm _
    · intro p hp
      obtain ⟨i, -, rfl⟩ := List.mem_map.1 hp
      show 0 < (r1.world.particles i).mass
      rw [m1]; exact hm _
  obtain ⟨k2, v2, x2⟩ := WHFast.C70_step c fuel k.g dt half (whfastGravity k roche c r1.world)
    (fun v w => whfastGravity_like) massive hh h2
  obtain ⟨p', mid, q1, -, -, q2, q3⟩ := WHFast.C109_step hc massive (system_two ho1) (fun v w hv hw => by
    obtain ⟨p, hp⟩ := List.length_eq_one_iff.1 hv
    exact whfastGravity_two hp hw) h2
  have rel := withSystem_two ho1 q1
  rw [hmm] at rel
  obtain ⟨w1, w2⟩ := withSystem_weighted k2
  obtain ⟨a3, p3, -, -⟩ := whfastForced_parts (by exact l1) h3
  have a4 : Alike (withSystem s r1.world) r.world := (withSystem_alike _ _).trans a1'
  have s3 := still (q := { r1 with world := withSystem s r1.world }) a4 l1 z1 h3
  have z3 := whfastForced_errors (r := { r1 with world := withSystem s r1.world }) z1 h3
  have relr : WHFast.relative (system r1.world).star (keplerBody (r1.world.particles o)) = relativeMotion r.world h o := by
    have : (system r1.world).star = keplerBody (r1.world.particles h) := by rw [← hmm]; rfl
    rw [this]
    simp only [WHFast.relative, relativeMotion, keplerBody, (s1 _).1, (s1 _).2, xu, yu]
  have relr' : relativeMotion r2.world h o = WHFast.relative s.star p' := by
    rw [← rel]
    simp only [relativeMotion, (s3 _).1, (s3 _).2]
  have hg : (system r1.world).star.massG + (keplerBody (r1.world.particles o)).massG
      = (r.world.particles h).massG + (r.world.particles o).massG := by
    show (r1.world.particles r1.world.hosts.mostMassive).massG + (r1.world.particles o).massG = _
    rw [hmm, g1, g1]
  rw [relr, hg] at q2
  rw [hg] at q3
  rw [system_weighted, system_weighted] at x2
  rw [system_weighted] at v2
  have f1 : (massSum r1.world fun p => WHFast.Body.velocity (keplerBody p)) = massSum r.world Particle.inertialVelocity :=
    Finset.sum_congr rfl fun i _ => by
      show (r1.world.particles i).mass • (r1.world.particles i).inertialVelocity = _
      rw [m1, (s1 i).2]; dsimp only; rw [yu]
  have f2 : (massSum r1.world fun p => WHFast.Body.position (keplerBody p)) = massSum r.world Particle.inertialPosition :=
    Finset.sum_congr rfl fun i _ => by
      show (r1.world.particles i).mass • (r1.world.particles i).inertialPosition = _
      rw [m1, (s1 i).1]; dsimp only; rw [xu]
  have f3 : massSum r2.world Particle.inertialVelocity = massSum (withSystem s r1.world) Particle.inertialVelocity :=
    Finset.sum_congr rfl fun i _ => by rw [(s3 i).2, a3.field Particle.mass (fun _ => rfl) i]
  have f4 : massSum r2.world Particle.inertialPosition = massSum (withSystem s r1.world) Particle.inertialPosition :=
    Finset.sum_congr rfl fun i _ => by rw [(s3 i).1, a3.field Particle.mass (fun _ => rfl) i]
  refine ⟨z3, ⟨fuel, mid, q2, ?_⟩, ?_, ?_, rfl⟩
  · dsimp only
    rw [relr']; exact q3
  · dsimp only
    rw [f3, w1, v2, f1]
  · dsimp only
    rw [f4, w2, x2, f1, f2]

/-- **C109**: with two bodies and no other forces, any number of iterations of WHFast in Jacobi coordinates or those of
WHDS is nothing but Kepler's motion of one body relative to the other, solved twice in every iteration over half the
time, and uniform motion of the centre of mass. -/
theorem C109_run {roche : Fin 2 → Fin 2 → ℝ} (hc : c ≠ .democraticHeliocentric) {dt half : ℝ} (hh : half + half = dt)
    {r r' : WHFastRun ℝ 2} (hf : Forceless r.world)
    (hm : ∀ i, 0 < (r.world.particles i).mass) (hl : r.errors.length = 2)
    (hz : ∀ e ∈ r.errors, e.velocity = 0 ∧ e.angular = 0) {h o : Fin 2} (hh' : h = r.world.hosts.mostMassive) (ho : o ≠ h)
    (hs : Relation.ReflTransGen (WHFastStep k m eps2 roche c dt half) r r') :
    ∃ (N : ℕ) (motion : ℕ → Axes ℝ × Axes ℝ), r'.time = r.time + N * dt
      ∧ motion 0 = relativeMotion r.world h o ∧ motion (2 * N) = relativeMotion r'.world h o
      ∧ (∀ i < 2 * N, ∃ fuel, keplerStep fuel ((r.world.particles h).massG + (r.world.particles o).massG) half
          (motion i).1 (motion i).2 = some (motion (i + 1)))
      ∧ massSum r'.world Particle.inertialVelocity = massSum r.world Particle.inertialVelocity
      ∧ massSum r'.world Particle.inertialPosition = massSum r.world Particle.inertialPosition
          + (N * dt) • massSum r.world Particle.inertialVelocity := by
  suffices key : (Alike r'.world r.world ∧ r'.errors.length = 2 ∧ ∀ e ∈ r'.errors, e.velocity = 0 ∧ e.angular = 0)
      ∧ ∃ (N : ℕ) (motion : ℕ → Axes ℝ × Axes ℝ), r'.time = r.time + N * dt
      ∧ motion 0 = relativeMotion r.world h o ∧ motion (2 * N) = relativeMotion r'.world h o
      ∧ (∀ i < 2 * N, ∃ fuel, keplerStep fuel ((r.world.particles h).massG + (r.world.particles o).massG) half
          (motion i).1 (motion i).2 = some (motion (i + 1)))
      ∧ massSum r'.world Particle.inertialVelocity = massSum r.world Particle.inertialVelocity
      ∧ massSum r'.world Particle.inertialPosition = massSum r.world Particle.inertialPosition
          + (N * dt) • massSum r.world Particle.inertialVelocity from key.2
  induction hs with
  | refl =>
    exact ⟨⟨Alike.refl _, hl, hz⟩, 0, fun _ => relativeMotion r.world h o, by simp, rfl, rfl, by simp, rfl, by simp⟩
  | @tail b d _ hs ih =>
    obtain ⟨⟨i1, i2, i3⟩, N, motion, j1, j2, j3, j4, j5, j6⟩ := ih
    obtain ⟨b1, b2⟩ := whfastStep_alike i2 hs
    have mg : ∀ i, (b.world.particles i).massG = (r.world.particles i).massG := fun i => i1.field _ (fun _ => rfl) i
    obtain ⟨e1, ⟨fuel, mid, e2, e3⟩, e4, e5, e6⟩ := whfastStep_two hc hh (r := b)
      (by unfold Forceless; rw [i1.consider]; exact hf)
      (fun i => by rw [i1.field Particle.mass (fun _ => rfl) i]; exact hm i) i2 i3
      (by rw [i1.hosts]; exact hh') ho hs
    rw [mg, mg] at e2 e3
    refine ⟨⟨b1.trans i1, b2, e1⟩, N + 1, fun i => if i ≤ 2 * N then motion i else if i = 2 * N + 1 then mid
      else relativeMotion d.world h o, ?_, ?_, ?_, ?_, ?_, ?_⟩
    · rw [e6, j1]; push_cast; ring
    · simpa using j2
    · dsimp only
      rw [if_neg (by omega), if_neg (by omega)]
    · intro i hi
      by_cases h1 : i < 2 * N
      · obtain ⟨fu, hfu⟩ := j4 i h1
        refine ⟨fu, ?_⟩
        dsimp only
        rw [if_pos (by omega), if_pos (by omega)]
        exact hfu
      · by_cases h2 : i = 2 * N
        · subst h2
          refine ⟨fuel, ?_⟩
          dsimp only
          rw [if_pos (by omega), if_neg (by omega), if_pos rfl, j3]
          exact e2
        · obtain rfl : i = 2 * N + 1 := by omega
          refine ⟨fuel, ?_⟩
          dsimp only
          rw [if_neg (by omega), if_pos rfl, if_neg (by omega), if_neg (by omega)]
          exact e3
    · rw [e4, j5]
    · rw [e5, j6, j5]
      push_cast
      module

/-- Two bodies that meet the hypotheses, one of them moving. -/
example : ∃ u : Universe ℝ 2, Forceless u ∧ (∀ i, 0 < (u.particles i).mass) ∧ (1 : Fin 2) ≠ u.hosts.mostMassive
    ∧ relativeMotion u u.hosts.mostMassive 1 = (⟨1, 0, 0⟩, ⟨0, 1, 0⟩) := by
  refine ⟨{ relativisticUniverse .kidder1995 0 0 with consider := ⟨false, false, false, false, false, false⟩ },
    ⟨rfl, rfl, rfl, rfl⟩, fun i => ?_, by decide, ?_⟩
  · have := relativisticUniverse_mass .kidder1995 0 0 i
    show 0 < ((relativisticUniverse .kidder1995 0 0).particles i).mass
    rw [this]; norm_num
  · simp [relativeMotion, relativisticUniverse, blank]

/-- A step of a star with one planet under a gravity without accelerations (time step zero, for others see C74). -/
example (c : WHFast.Coordinates) : ∃ (u u' : WHFast.Sys ℝ) (p : WHFast.Body ℝ), WHFast.Massive u ∧ u.planets = [p]
    ∧ WHFast.relative u.star p = (⟨1, 0, 0⟩, ⟨0, 1, 0⟩)
    ∧ WHFast.step c 1 1 0 0 (fun v => some (WHFast.Sys.mk { v.star with acceleration := 0 }
        (v.planets.map fun p => { p with acceleration := 0 }))) u = some u' := by
  have h : ∀ u : WHFast.Sys ℝ, ∃ u', WHFast.step c 1 1 0 0 (fun v => some (WHFast.Sys.mk { v.star with acceleration := 0 }
      (v.planets.map fun p => { p with acceleration := 0 }))) u = some u' := fun u => by
    simp [WHFast.step, WHFast.part1, WHFast.part2, WHFast.keplerSteps, WHFast.keplerPlanets_zero c 0]
  obtain ⟨u', hu'⟩ := h ⟨⟨1, 1, 0, 0, 0⟩, [⟨1, 1, ⟨1, 0, 0⟩, ⟨0, 1, 0⟩, 0⟩]⟩
  exact ⟨_, u', _, ⟨by simp, by simp⟩, rfl, by simp [WHFast.relative], hu'⟩

end Posidonius.Univ
