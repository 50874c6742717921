import Verif.Props.WHFastReverse
import Verif.Props.WHFastConvergence

/-! # C137: WHFast in a universe without other effects is the splitting of Newton's equations -/

namespace Posidonius.Univ
open Posidonius Set

variable {n : ℕ} {k : Consts ℝ} {m : Models ℝ} {eps2 : ℝ} {roche : Fin n → Fin n → ℝ} {c : WHFast.Coordinates}

theorem like_pairs {s w : WHFast.Sys ℝ} (h : WHFast.Like w s) :
    (w.bodies.map fun p => (p.mass, p.massG)) = s.bodies.map fun p => (p.mass, p.massG) := by
  obtain ⟨h1, h1', h2⟩ := h
  simp only [WHFast.Sys.bodies, List.map_cons, h1, h1', List.cons.injEq, true_and]
  generalize w.planets = a at h2
  generalize s.planets = b at h2
  induction h2 with
  | nil => rfl
  | cons h _ ih => simp [h.1, h.2, ih]

/-- The bodies of a system in the order of the particles. -/
theorem like_entries {u : Universe ℝ n} {s : WHFast.Sys ℝ} (h : WHFast.Like s (system u)) :
    ∃ e : Fin n → WHFast.Body ℝ, s.bodies = (starFirst u.hosts.mostMassive).map e
      ∧ (∀ i, (e i).mass = (u.particles i).mass ∧ (e i).massG = (u.particles i).massG)
      ∧ ∀ i, (withSystem s u).particles i = { u.particles i with
          inertialPosition := (e i).position, inertialVelocity := (e i).velocity, inertialAcceleration := (e i).acceleration } := by
  have hl : s.bodies.length = n := by rw [h.length, system_bodies]; simp [starFirst_length]
  have hb := map_entry u.hosts.mostMassive hl fun i => keplerBody (u.particles i)
  refine ⟨fun i => entry u.hosts.mostMassive s.bodies (keplerBody (u.particles i)) i, hb.symm, fun i => ?_, fun i => rfl⟩
  have hp := like_pairs h
  rw [system_bodies] at hp
  conv_lhs at hp => rw [← hb]
  rw [List.map_map, List.map_map, List.map_inj_left] at hp
  have := hp i (mem_starFirst _ i)
  exact ⟨congrArg Prod.fst this, congrArg Prod.snd this⟩

/-- **C137, kick**: the accelerations that WHFast takes from the universe are those of the bodies whose attraction is not in
the Kepler motions: in Jacobi coordinates all pairs except star and first planet, otherwise the planets among each other. -/
theorem C137_kick {u : Universe ℝ n} {s w : WHFast.Sys ℝ} (hs : WHFast.Like s (system u))
    (hG : ∀ i, (u.particles i).massG = k.g * (u.particles i).mass)
    (h : whfastGravity k roche c u s = some w) : w = WHFast.kicked c k.g s := by
  obtain ⟨e, hb, he, hw⟩ := like_entries hs
  unfold whfastGravity at h
  split at h
  · cases h
  · next u1 hu1 =>
    unfold universeGravity at hu1
    split at hu1
    · cases hu1
    · next a ea =>
      cases hu1
      cases h
      have ha : a = Gravity.acceleration k.g (fun i => bodyOf ((withSystem s u).particles i)) (ignored c)
          u.hosts.mostMassive := by
        unfold Gravity.gravity at ea
        split at ea
        · cases ea
        · injection ea with ea
          exact ea.symm
      have hi : ignored c = if c = .jacobi then .whfastOne else .whfastTwo := by cases c <;> rfl
      rw [hi] at ha
      have body : ∀ (b : Fin n → Axes ℝ) i, WHFast.bodyOf k.g (fun i => bodyOf ((withSystem s u).particles i)) b i
          = { e i with acceleration := b i } := by
        intro b i
        simp only [WHFast.bodyOf, bodyOf, hw]
        obtain ⟨h1, h2⟩ := he i
        rw [← hG i, ← h1, ← h2]
      have bodies := fun b => funext (body b)
      have sys : WHFast.sysOf k.g (fun i => bodyOf ((withSystem s u).particles i)) (fun i => (e i).acceleration)
          u.hosts.mostMassive = s := by
        unfold WHFast.sysOf
        rw [bodies]
        clear body bodies hw ha
        obtain ⟨star, planets⟩ := s
        unfold starFirst at hb
        simp only [WHFast.Sys.bodies, List.map_cons, List.cons.injEq] at hb
        obtain ⟨h1, h2⟩ := hb
        simp only [h1, h2]
        rfl
      have key := WHFast.C72_gravity k.g (fun i => bodyOf ((withSystem s u).particles i)) (fun i => (e i).acceleration) c
        u.hosts.mostMassive
      rw [sys, ← ha] at key
      rw [← key]
      unfold WHFast.sysOf
      rw [bodies]
      clear body bodies hw sys key ha ea hs
      obtain ⟨star, planets⟩ := s
      unfold starFirst at hb
      simp only [WHFast.Sys.bodies, List.map_cons, List.cons.injEq] at hb
      obtain ⟨h1, h2⟩ := hb
      simp only [h1, h2, starFirst]
      congr 1
      apply List.ext_getElem (by simp [WHFast.others])
      intro j j1 j2
      have hj : j < ((List.finRange n).filter fun i => decide (i ≠ u.hosts.mostMassive)).length := by simpa [WHFast.others] using j2
      simp only [ne_eq, List.map_cons, List.getElem_mapIdx, List.getElem_map, List.getElem?_cons_succ, List.getElem?_map,
        List.getElem?_eq_getElem hj, Option.map_some, Option.getD_some, WHFast.others]

/-- **C137, step**: without other effects, an iteration of the universe, with a record or without, is the step of WHFast with
the attraction that is not in the Kepler motions; the corrections of the compensated summation stay zero. -/
theorem C137_step {fuel : ℕ} {record : Bool} {dt half : ℝ} {r r' : WHFastRun ℝ n} (hf : Forceless r.world) (hm : ∀ i, 0 < (r.world.particles i).mass)
    (hG : ∀ i, (r.world.particles i).massG = k.g * (r.world.particles i).mass) (hl : r.errors.length = n)
    (hz : ∀ e ∈ r.errors, e.velocity = 0 ∧ e.angular = 0)
    (hs : whfastIterate k m eps2 roche c fuel dt half record r = some r') :
    (∃ s, WHFast.step c fuel k.g dt half (fun v => some (WHFast.kicked c k.g v)) (system r.world) = some s
        ∧ (system r'.world).motions = s.motions)
      ∧ r'.time = r.time + dt ∧ ∀ e ∈ r'.errors, e.velocity = 0 ∧ e.angular = 0 := by
  obtain ⟨u, r1, s, r2, hu, h1, h2, h3, rfl⟩ := whfastStep_parts hs
  obtain ⟨au, pu, -⟩ := observed_parts hu
  have xu : ∀ i, (u.particles i).inertialPosition = (r.world.particles i).inertialPosition := fun i =>
    congrArg Ias15.Place.position (pu i)
  have yu : ∀ i, (u.particles i).inertialVelocity = (r.world.particles i).inertialVelocity := fun i =>
    congrArg Ias15.Place.velocity (pu i)
  have still : ∀ {q q' : WHFastRun ℝ n} {b : Bool}, Alike q.world r.world → q.errors.length = n →
      (∀ e ∈ q.errors, e.velocity = 0 ∧ e.angular = 0) →
      whfastForced k m eps2 c half (integrateSpin u) b q = some q' →
      ∀ i, (q'.world.particles i).inertialPosition = (q.world.particles i).inertialPosition
        ∧ (q'.world.particles i).inertialVelocity = (q.world.particles i).inertialVelocity := by
    intro q q' b aq lq zq hq i
    obtain ⟨e1, e2, -⟩ := C98_forced lq zq hq i
    refine ⟨e1, ?_⟩
    rw [e2, aq.consider]
    simp [additional, hf.1, hf.2.1, hf.2.2.1, hf.2.2.2]
  obtain ⟨a1, p1, -, l1⟩ := whfastForced_parts (by exact hl) h1
  have s1 := still (q := { r with world := u }) au hl hz h1
  have z1 := whfastForced_errors (r := { r with world := u }) hz h1
  have a1' : Alike r1.world r.world := a1.trans au
  have moved : ∀ {v w : Universe ℝ n}, Alike v w → (∀ i, (v.particles i).inertialPosition = (w.particles i).inertialPosition) →
      (∀ i, (v.particles i).inertialVelocity = (w.particles i).inertialVelocity) → (system v).motions = (system w).motions := by
    intro v w a x y
    unfold WHFast.Sys.motions
    rw [system_bodies, system_bodies, a.hosts, List.map_map, List.map_map]
    refine List.map_congr_left fun i _ => ?_
    simp only [Function.comp_apply, keplerBody, x, y, a.field Particle.mass (fun _ => rfl) i,
      a.field Particle.massG (fun _ => rfl) i]
  have e1 : (system r.world).motions = (system r1.world).motions :=
    (moved a1' (fun i => ((s1 i).1).trans (xu i)) (fun i => ((s1 i).2).trans (yu i))).symm
  have m1 : ∀ i, (r1.world.particles i).mass = (r.world.particles i).mass := fun i => a1'.field _ (fun _ => rfl) i
  have g1 : ∀ i, (r1.world.particles i).massG = (r.world.particles i).massG := fun i => a1'.field _ (fun _ => rfl) i
  have massive : WHFast.Massive (system r1.world) := by
    refine ⟨?_, ?_⟩
    · show 0 < (r1.world.particles _).mass
      rw [m1]; exact hm _
    · intro p hp
      obtain ⟨i, -, rfl⟩ := List.mem_map.1 hp
      show 0 < (r1.world.particles i).mass
      rw [m1]; exact hm _
  obtain ⟨b1, b5, u2, j1, j2, j3, j4⟩ := (WHFast.C115_step c fuel k.g dt half _ _ _).1 h2
  have l2 := WHFast.fromAlternative_like c
    (WHFast.jumpStep_matches c half (WHFast.keplerMove_matches j1 (WHFast.toAlternative_matches c massive)))
  have kick := C137_kick l2 (fun i => by rw [g1, m1]; exact hG i) j2
  have by1 : WHFast.StepBy (WHFast.keplerStep fuel) c k.g dt half (fun v => some (WHFast.kicked c k.g v)) (system r1.world) s :=
    ⟨b1, b5, u2, j1, by rw [kick], j3, j4⟩
  have ls : WHFast.Like s (system r1.world) := WHFast.stepBy_like (WHFast.C115_kicked c k.g 0) massive by1
  obtain ⟨s', t1, t2⟩ := WHFast.stepBy_congr (WHFast.C115_kicked c k.g _) massive e1 by1
  obtain ⟨a3, p3, -, -⟩ := whfastForced_parts (by exact l1) h3
  have a4 : Alike (withSystem s r1.world) r.world := (withSystem_alike _ _).trans a1'
  have s3 := still (q := { r1 with world := withSystem s r1.world }) a4 l1 z1 h3
  have z3 := whfastForced_errors (r := { r1 with world := withSystem s r1.world }) z1 h3
  refine ⟨⟨s', (WHFast.C115_step c fuel k.g dt half _ _ _).2 t1, ?_⟩, rfl, z3⟩
  rw [t2]
  refine (moved a3 (fun i => (s3 i).1) (fun i => (s3 i).2)).trans ?_
  obtain ⟨e, hb, he, hw⟩ := like_entries ls
  unfold WHFast.Sys.motions
  rw [system_bodies, hb, List.map_map, List.map_map]
  refine List.map_congr_left fun i _ => ?_
  simp only [Function.comp_apply, keplerBody, hw, he]

theorem system_massive {u : Universe ℝ n} (hm : ∀ i, 0 < (u.particles i).mass) : WHFast.Massive (system u) := by
  refine ⟨hm _, fun p hp => ?_⟩
  obtain ⟨i, -, rfl⟩ := List.mem_map.1 hp
  exact hm i

/-- Each iteration of a run is a step. -/
theorem forceless_steps {fuel : ℕ} {dt half : ℝ} {N : ℕ} {r : ℕ → WHFastRun ℝ n} (hf : Forceless (r 0).world)
    (hm : ∀ i, 0 < ((r 0).world.particles i).mass)
    (hG : ∀ i, ((r 0).world.particles i).massG = k.g * ((r 0).world.particles i).mass) (hl : (r 0).errors.length = n)
    (hz : ∀ e ∈ (r 0).errors, e.velocity = 0 ∧ e.angular = 0)
    (hs : ∀ j < N, ∃ record, whfastIterate k m eps2 roche c fuel dt half record (r j) = some (r (j + 1))) :
    (∀ j ≤ N, (r j).errors.length = n ∧ (∀ e ∈ (r j).errors, e.velocity = 0 ∧ e.angular = 0)
        ∧ (r j).time = (r 0).time + j * dt ∧ Alike (r j).world (r 0).world)
      ∧ ∀ j < N, ∃ s, WHFast.step c fuel k.g dt half (fun v => some (WHFast.kicked c k.g v)) (system (r j).world) = some s
        ∧ (system (r (j + 1)).world).motions = s.motions := by
  have one : ∀ j < N, (r j).errors.length = n → (∀ e ∈ (r j).errors, e.velocity = 0 ∧ e.angular = 0) →
      Alike (r j).world (r 0).world →
      (∃ s, WHFast.step c fuel k.g dt half (fun v => some (WHFast.kicked c k.g v)) (system (r j).world) = some s
        ∧ (system (r (j + 1)).world).motions = s.motions)
      ∧ (r (j + 1)).time = (r j).time + dt ∧ ∀ e ∈ (r (j + 1)).errors, e.velocity = 0 ∧ e.angular = 0 := by
    intro j hj lj zj aj
    obtain ⟨record, hs⟩ := hs j hj
    have ms : ∀ i, ((r j).world.particles i).mass = ((r 0).world.particles i).mass := fun i => aj.field _ (fun _ => rfl) i
    have gs : ∀ i, ((r j).world.particles i).massG = ((r 0).world.particles i).massG := fun i => aj.field _ (fun _ => rfl) i
    exact C137_step (by unfold Forceless; rw [aj.consider]; exact hf) (fun i => by rw [ms]; exact hm i)
      (fun i => by rw [gs, ms]; exact hG i) lj zj hs
  have all : ∀ j ≤ N, (r j).errors.length = n ∧ (∀ e ∈ (r j).errors, e.velocity = 0 ∧ e.angular = 0)
        ∧ (r j).time = (r 0).time + j * dt ∧ Alike (r j).world (r 0).world := by
    intro j
    induction j with
    | zero => exact fun _ => ⟨hl, hz, by simp, Alike.refl _⟩
    | succ j ih =>
      intro hj
      obtain ⟨lj, zj, tj, aj⟩ := ih (by omega)
      obtain ⟨-, e1, e2⟩ := one j (by omega) lj zj aj
      obtain ⟨record, hs⟩ := hs j (by omega)
      obtain ⟨b1, b2⟩ := whfastStep_alike lj ⟨fuel, record, hs⟩
      refine ⟨b2, e2, ?_, b1.trans aj⟩
      rw [e1, tj]; push_cast; ring
  exact ⟨all, fun j hj => (one j hj (all j hj.le).1 (all j hj.le).2.1 (all j hj.le).2.2.2).1⟩

/-- Steps that agree but for accelerations can be joined. -/
theorem join_steps {K : WHFast.Solver} {g dt half : ℝ} {N : ℕ} {sys : ℕ → WHFast.Sys ℝ} (hm : ∀ j ≤ N, WHFast.Massive (sys j))
    (h : ∀ j < N, ∃ s, WHFast.StepBy K c g dt half (fun v => some (WHFast.kicked c g v)) (sys j) s ∧ (sys (j + 1)).motions = s.motions) :
    ∃ run : ℕ → WHFast.Sys ℝ, run 0 = sys 0
      ∧ (∀ j < N, WHFast.StepBy K c g dt half (fun v => some (WHFast.kicked c g v)) (run j) (run (j + 1)))
      ∧ ∀ j ≤ N, (sys j).motions = (run j).motions := by
  suffices key : ∀ M ≤ N, ∃ run : ℕ → WHFast.Sys ℝ, run 0 = sys 0
      ∧ (∀ j < M, WHFast.StepBy K c g dt half (fun v => some (WHFast.kicked c g v)) (run j) (run (j + 1)))
      ∧ ∀ j ≤ M, (sys j).motions = (run j).motions from key N le_rfl
  intro M
  induction M with
  | zero =>
    intro _
    refine ⟨fun _ => sys 0, rfl, by simp, fun j hj => ?_⟩
    obtain rfl : j = 0 := by omega
    rfl
  | succ M ih =>
    intro hM
    obtain ⟨run, r0, st, mo⟩ := ih (by omega)
    obtain ⟨s, e1, e2⟩ := h M (by omega)
    obtain ⟨s', t1, t2⟩ := WHFast.stepBy_congr (WHFast.C115_kicked c g _) (hm M (by omega)) (mo M le_rfl).symm e1
    refine ⟨fun j => if j ≤ M then run j else s', by simpa using r0, fun j hj => ?_, fun j hj => ?_⟩
    · rcases Nat.lt_succ_iff_lt_or_eq.1 hj with hj | rfl
      · dsimp only
        rw [if_pos (by omega), if_pos (by omega)]
        exact st j hj
      · dsimp only
        rw [if_pos le_rfl, if_neg (by omega)]
        exact t1
    · rcases Nat.le_succ_iff.1 hj with hj | rfl
      · dsimp only
        rw [if_pos hj]
        exact mo j hj
      · dsimp only
        rw [if_neg (by omega)]
        exact e2.trans t2.symm

/-- **C137, runs**: any number of iterations of a universe without other effects is as many steps of WHFast. -/
theorem C137_run {fuel : ℕ} {dt half : ℝ} {N : ℕ} {r : ℕ → WHFastRun ℝ n} (hf : Forceless (r 0).world)
    (hm : ∀ i, 0 < ((r 0).world.particles i).mass)
    (hG : ∀ i, ((r 0).world.particles i).massG = k.g * ((r 0).world.particles i).mass) (hl : (r 0).errors.length = n)
    (hz : ∀ e ∈ (r 0).errors, e.velocity = 0 ∧ e.angular = 0)
    (hs : ∀ j < N, ∃ record, whfastIterate k m eps2 roche c fuel dt half record (r j) = some (r (j + 1))) :
    ∃ run : ℕ → WHFast.Sys ℝ, run 0 = system (r 0).world
      ∧ (∀ j < N, WHFast.step c fuel k.g dt half (fun v => some (WHFast.kicked c k.g v)) (run j) = some (run (j + 1)))
      ∧ (∀ j ≤ N, (system (r j).world).motions = (run j).motions ∧ (r j).time = (r 0).time + j * dt
        ∧ Alike (r j).world (r 0).world) := by
  obtain ⟨all, steps⟩ := forceless_steps hf hm hG hl hz hs
  obtain ⟨run, e0, e1, e2⟩ := join_steps (K := WHFast.keplerStep fuel) (sys := fun j => system (r j).world) (N := N)
    (fun j hj => system_massive fun i => by rw [(all j hj).2.2.2.field Particle.mass (fun _ => rfl) i]; exact hm i) fun j hj => by
      obtain ⟨s, a, b⟩ := steps j hj
      exact ⟨s, (WHFast.C115_step c fuel k.g dt half _ _ _).1 a, b⟩
  exact ⟨run, e0, fun j hj => (WHFast.C115_step c fuel k.g dt half _ _ _).2 (e1 j hj),
    fun j hj => ⟨e2 j hj, (all j hj).2.2.1, (all j hj).2.2.2⟩⟩

/-- The bodies of the system, numbered as the particles. -/
theorem system_numbering (u : Universe ℝ n) : ∃ σ : Fin (system u).bodies.length ≃ Fin n,
    ∀ v : Universe ℝ n, v.hosts = u.hosts → ∀ j, (system v).bodies[j.val]? = some (keplerBody (v.particles (σ j))) := by
  have hlen : (system u).bodies.length = (starFirst u.hosts.mostMassive).length := by rw [system_bodies, List.length_map]
  refine ⟨(finCongr hlen).trans (List.Nodup.getEquivOfForallMemList _ (starFirst_nodup _) (mem_starFirst _)), fun v hv j => ?_⟩
  rw [system_bodies, hv, List.getElem?_map, List.getElem?_eq_getElem (hlen ▸ j.2)]
  rfl

/-- **C137, convergence**: let the particles of a universe without other effects move under their Newtonian attraction without
collisions for the time `T`.  If the Kepler solver of the code was accurate to `ε` in all its calls, then after any number of
iterations of WHFast within `T`, in democratic heliocentric or in WHDS coordinates, with records or without, the error of all
positions and velocities is at most a constant times `h ^ 2 + ε / h`. -/
theorem C137_order (hc : c ≠ .jacobi) {T : ℝ} (hT : 0 ≤ T) {r0 : WHFastRun ℝ n} (hf : Forceless r0.world)
    (hm : ∀ i, 0 < (r0.world.particles i).mass)
    (hG : ∀ i, (r0.world.particles i).massG = k.g * (r0.world.particles i).mass) (hl : r0.errors.length = n)
    (hz : ∀ e ∈ r0.errors, e.velocity = 0 ∧ e.angular = 0) {X V : Fin n → ℝ → Axes ℝ}
    (hX : ∀ i, ∀ t ∈ Icc 0 T, WHFast.VecDeriv (X i) (V i t) t)
    (hV : ∀ i, ∀ t ∈ Icc 0 T, WHFast.VecDeriv (V i)
      (∑ j, if j = i then 0 else Gravity.newton k.g (r0.world.particles j).mass (X i t) (X j t)) t)
    (apart : ∀ i j, i ≠ j → ∀ t ∈ Icc 0 T, X i t ≠ X j t)
    (hx : ∀ i, (r0.world.particles i).inertialPosition = X i 0) (hv : ∀ i, (r0.world.particles i).inertialVelocity = V i 0) :
    ∃ C δ, 0 < δ ∧ ∀ h ε, 0 < h → h < δ → 0 ≤ ε → ε ≤ δ * h → ∀ (fuel N : ℕ) (r : ℕ → WHFastRun ℝ n), N * h ≤ T → r 0 = r0 →
      (∀ j < N, ∃ record, whfastIterate k m eps2 roche c fuel h (h / 2) record (r j) = some (r (j + 1))) →
      (∀ j < N, ∀ s, WHFast.step c fuel k.g h (h / 2) (fun v => some (WHFast.kicked c k.g v)) (system (r j).world) = some s →
        WHFast.StepBy (WHFast.Solver.within (WHFast.keplerStep fuel) ε) c k.g h (h / 2)
          (fun v => some (WHFast.kicked c k.g v)) (system (r j).world) s) →
      (r N).time = r0.time + N * h ∧ ∀ i, 
        √((((r N).world.particles i).inertialPosition - X i (N * h)).dot (((r N).world.particles i).inertialPosition - X i (N * h)))
            ≤ C * (h ^ 2 + ε / h)
        ∧ √((((r N).world.particles i).inertialVelocity - V i (N * h)).dot (((r N).world.particles i).inertialVelocity - V i (N * h)))
            ≤ C * (h ^ 2 + ε / h) := by
  obtain ⟨σ, hσ⟩ := system_numbering r0.world
  have body : ∀ j : Fin (system r0.world).bodies.length, (system r0.world).bodies[j] = keplerBody (r0.world.particles (σ j)) := by
    intro j
    have := hσ r0.world rfl j
    rw [List.getElem?_eq_getElem j.2] at this
    exact Option.some.inj this
  obtain ⟨C, δ, δ0, main⟩ := WHFast.C121_second_order (u := system r0.world) hc hT (system_massive hm) (G := k.g) (by
      intro p hp
      rw [system_bodies] at hp
      obtain ⟨i, -, rfl⟩ := List.mem_map.1 hp
      exact hG i) (X := fun j => X (σ j)) (V := fun j => V (σ j)) (fun j => hX _) (by
      intro i t ht
      have e : (∑ j : Fin (system r0.world).bodies.length, if j = i then (0 : Axes ℝ)
            else Gravity.newton k.g ((system r0.world).bodies[j]).mass (X (σ i) t) (X (σ j) t))
          = ∑ j, if j = σ i then 0 else Gravity.newton k.g (r0.world.particles j).mass (X (σ i) t) (X j t) := by
        rw [← Equiv.sum_comp σ]
        refine Finset.sum_congr rfl fun j _ => ?_
        rw [body]
        simp only [σ.injective.eq_iff]
        rfl
      rw [e]
      exact hV (σ i) t ht) (fun i j hij => apart _ _ fun h => hij (σ.injective h)) (fun j => by rw [body]; exact hx _)
      (fun j => by rw [body]; exact hv _)
  refine ⟨C, δ, δ0, fun h ε h0 hh ε0 hε fuel N r hN hr0 hs hacc => ?_⟩
  subst hr0
  obtain ⟨all, steps⟩ := forceless_steps hf hm hG hl hz hs
  obtain ⟨run, e0, e1, e2⟩ := join_steps (sys := fun j => system (r j).world) (N := N)
    (fun j hj => system_massive fun i => by rw [(all j hj).2.2.2.field Particle.mass (fun _ => rfl) i]; exact hm i) fun j hj => by
      obtain ⟨s, a, b⟩ := steps j hj
      exact ⟨s, hacc j hj s a, b⟩
  obtain ⟨l, q⟩ := main h ε h0 hh ε0 hε _ (WHFast.within_accurate _ _) N run hN e0 e1
  refine ⟨(all N le_rfl).2.2.1, fun i => ?_⟩
  have b := hσ (r N).world (all N le_rfl).2.2.2.hosts (σ.symm i)
  rw [Equiv.apply_symm_apply] at b
  have hj : (σ.symm i).val < (run N).bodies.length := by rw [l]; exact (σ.symm i).2
  obtain ⟨-, q1, q2⟩ := q (σ.symm i) _ (List.getElem?_eq_getElem hj)
  have mo := congrArg (fun x => x[(σ.symm i).val]?) (e2 N le_rfl)
  dsimp only [WHFast.Sys.motions] at mo
  rw [List.getElem?_map, List.getElem?_map, b, List.getElem?_eq_getElem hj] at mo
  simp only [Option.map_some, Option.some.injEq, Prod.mk.injEq, keplerBody] at mo
  simp only [Equiv.apply_symm_apply] at q1 q2
  rw [mo.2.2.1, mo.2.2.2]
  exact ⟨q1, q2⟩

/-! ### Example: two equal bodies on a circle -/

/-- The two bodies of `WHFast.twins` as particles, without effects. -/
noncomputable def twinUniverse : Universe ℝ 2 :=
  { relativisticUniverse .kidder1995 0 0 with
    consider := ⟨false, false, false, false, false, false⟩
    particles := fun i => { blank ℝ with mass := 1, massG := 1 / 2, inertialPosition := WHFast.twinsX i 0,
                                         inertialVelocity := WHFast.twinsV i 0 } }

/-- They meet the hypotheses of `C137_order`, and gravity finds no collision, so that `C137_kick` applies. -/
example {c : WHFast.Coordinates} (hc : c ≠ .jacobi) (k : Consts ℝ) (hk : k.g = 1 / 2) (m : Models ℝ) (eps2 : ℝ) :
    (∃ w, whfastGravity k (fun _ _ => 0) c twinUniverse (system twinUniverse) = some w)
    ∧ ∃ C δ : ℝ, 0 < δ ∧ ∀ h ε : ℝ, 0 < h → h < δ → 0 ≤ ε → ε ≤ δ * h → ∀ (fuel N : ℕ) (r : ℕ → WHFastRun ℝ 2),
      N * h ≤ 100 → r 0 = ⟨twinUniverse, [⟨0, 0⟩, ⟨0, 0⟩], 0⟩ →
      (∀ j < N, ∃ record, whfastIterate k m eps2 (fun _ _ => 0) c fuel h (h / 2) record (r j) = some (r (j + 1))) →
      (∀ j < N, ∀ s, WHFast.step c fuel k.g h (h / 2) (fun v => some (WHFast.kicked c k.g v)) (system (r j).world) = some s →
        WHFast.StepBy (WHFast.Solver.within (WHFast.keplerStep fuel) ε) c k.g h (h / 2)
          (fun v => some (WHFast.kicked c k.g v)) (system (r j).world) s) →
      √((((r N).world.particles 0).inertialPosition - WHFast.twinsX 0 (N * h)).dot
        (((r N).world.particles 0).inertialPosition - WHFast.twinsX 0 (N * h))) ≤ C * (h ^ 2 + ε / h) := by
  constructor
  · have e : ∀ i, (withSystem (system twinUniverse) twinUniverse).particles i = twinUniverse.particles i := by
      obtain ⟨e, hb, -, hw⟩ := like_entries (u := twinUniverse) (s := system twinUniverse)
        ⟨rfl, rfl, List.forall₂_same.2 fun _ _ => ⟨rfl, rfl⟩⟩
      intro i
      rw [system_bodies, List.map_inj_left] at hb
      rw [hw, ← hb i (mem_starFirst _ i)]
      rfl
    have ok : ∃ a, Gravity.gravity k.g (fun i => bodyOf ((withSystem (system twinUniverse) twinUniverse).particles i))
        (fun _ _ => 0) (ignored c) (0 : Fin 2) = .ok a := by
      rw [Gravity.C45_partial_goes_on_iff _ _ _ _ _ (by simp [Gravity.maxDistance2])]
      intro i j hij
      obtain ⟨rfl, rfl⟩ : i = 0 ∧ j = 1 := by omega
      simp only [e]
      have d : Gravity.distance2 (bodyOf (twinUniverse.particles 0)) (bodyOf (twinUniverse.particles 1)) = 1 := by
        simp [Gravity.distance2, bodyOf, twinUniverse, WHFast.twinsX, WHFast.side, Axes.norm2]
        show (2⁻¹ - -2⁻¹ : ℝ) * (2⁻¹ - -2⁻¹) + (0 - 0) * (0 - 0) + (0 - 0) * (0 - 0) = 1
        norm_num
      refine ⟨?_, ?_, ?_⟩
      · simp [Gravity.InsideRoche, d]
      · simp only [Gravity.Overlap, d]
        simp [bodyOf, twinUniverse, blank]
      · simp [Gravity.Far, d, Gravity.maxDistance2]
    obtain ⟨a, ha⟩ := ok
    unfold whfastGravity universeGravity
    have : (withSystem (system twinUniverse) twinUniverse).hosts.mostMassive = (0 : Fin 2) := rfl
    rw [this, ha]
    exact ⟨_, rfl⟩
  · obtain ⟨C, δ, δ0, main⟩ := C137_order (k := k) (m := m) (eps2 := eps2) (roche := fun _ _ => 0) hc (T := 100) (by norm_num)
      (r0 := ⟨twinUniverse, [⟨0, 0⟩, ⟨0, 0⟩], 0⟩) ⟨rfl, rfl, rfl, rfl⟩ (fun i => by simp [twinUniverse])
      (fun i => by simp [twinUniverse, hk]) rfl (by simp) (X := WHFast.twinsX) (V := WHFast.twinsV)
      (fun i t _ => ⟨(Real.hasDerivAt_cos t).const_mul _, (Real.hasDerivAt_sin t).const_mul _, hasDerivAt_const t 0⟩)
      (fun i t _ => by
        have := WHFast.twins_force i t
        rw [hk]
        refine Eq.subst (motive := fun x => WHFast.VecDeriv (WHFast.twinsV i) x t) ?_ this
        refine Finset.sum_congr rfl fun j _ => ?_
        have e : (WHFast.twins.bodies[j]'j.isLt).mass = 1 := by
          match j with
          | 0 => rfl
          | 1 => rfl
        rw [e]
        rfl)
      (fun i j hij t _ => WHFast.twins_apart i j hij t) (fun _ => rfl) (fun _ => rfl)
    exact ⟨C, δ, δ0, fun h ε h0 hh ε0 hε fuel N r hN hr0 hs ha => ((main h ε h0 hh ε0 hε fuel N r hN hr0 hs ha).2 0).1⟩

end Posidonius.Univ
