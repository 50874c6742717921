import Verif.Lemmas.UnitsNewhall
import Verif.Lemmas.UnitsUniverse
import Verif.Lemmas.UnitsCreep
import Verif.Props.Observer

/-! # C107 The choice of the units -/

namespace Posidonius.Univ
open Gravity (Ignore)

section
variable {n : Nat} {k : Consts ℝ} {m m' : Models ℝ} {eps2 dt : ℝ} {roche : Fin n → Fin n → ℝ} {u : Universe ℝ n}

/-- Tides of the constant time lag or the creep model or none, no relativity as given by Kidder or Newhall et al. -/
structure Scalable (u : Universe ℝ n) : Prop where
  tides : ∀ i, (u.particles i).tides.effect ≠ .central .kaula ∧ (u.particles i).tides.effect ≠ .orbiting .kaula
  gr : u.consider.gr = true → ∀ i x, (u.particles i).gr.effect = .central x → x ≠ .kidder1995 ∧ x ≠ .newhall1983

theorem Scalable.fit [FTan ℝ] {o : Units} {fuel : Nat} (h : Scalable u) :
    UnitsFit o (withCreep k fuel m) (withCreep (o.consts k) fuel m') u where
  tides i model hi := by
    cases model with
    | constantTimeLag a b c => exact ctl_units o _ _ a b c
    | creepCoplanar eta => exact creepTides_units o k fuel m m' eta
    | kaula => exact (hi.elim (h.tides i).1 (h.tides i).2).elim
  flattening i model _ := by
    cases model with
    | oblateSpheroid a => exact oblate_units o _ _ a
    | creepCoplanar eta => exact creepFlattening_units o k fuel m m' eta
  gr hc i _ := ⟨fun e => absurd rfl (h.gr hc i _ e).1, fun e => absurd rfl (h.gr hc i _ e).2⟩

/-- The evaluation of the effects is the same in all units of length, time and mass, if the constants are given in these
units. Missing: Kidder's relativity, see `C107_violated`; Newhall's relativity, whose iteration ends at a difference of 1e-30 in
the units of the code; the Kaula tides. -/
theorem C107_evaluation_partial [FTan ℝ] (o : Units) (h : Scalable u) (fuel : Nat) (time : ℝ) (evolution dL acc : Bool)
    (ignore : Ignore) :
    calculateAdditionalEffects (o.consts k) (withCreep (o.consts k) fuel m') eps2 (o.time * time) evolution dL acc ignore
        (inertialToHeliocentric (o.describes u))
      = (calculateAdditionalEffects k (withCreep k fuel m) eps2 time evolution dL acc ignore
        (inertialToHeliocentric u)).map o.describes := by
  rw [inertialToHeliocentric_units,
    evaluation_units o k eps2 time evolution dL acc ignore (h.fit.kept (kept_heliocentric u))]

/-- **C107 (partial)** Newhall's corrections in other units.  The limit of 1e-30 in the test of convergence has no units;
components below it are excluded in both systems of units. -/
theorem C107_newhall_partial (o : Units) (h : Fin n) (p : Fin n → Particle ℝ) (ignore : Ignore)
    (hg : (p h).gr.effect = .central .newhall1983)
    (ht : ∀ i, NoTiny (newhallSweep k h p (newtonianAccelerations k ignore h p) (fun _ => Axes.zero) i)
      ∧ NoTiny (o.acceleration • newhallSweep k h p (newtonianAccelerations k ignore h p) (fun _ => Axes.zero) i)) :
    generalRelativity (o.consts k) eps2 ignore h (fun i => o.sees (p i))
      = fun i => o.sees (generalRelativity k eps2 ignore h p i) := by
  unfold generalRelativity
  dsimp only
  rw [show (o.sees (p h)).gr.effect = (p h).gr.effect from rfl, hg]
  exact newhall_units o p k ignore h ht

/-- Each sweep, whatever the test of convergence decides. -/
theorem C107_newhall_sweep (o : Units) (h : Fin n) (p : Fin n → Particle ℝ) (newton old : Fin n → Axes ℝ) (i : Fin n) :
    newhallSweep (o.consts k) h (fun i => o.sees (p i)) (fun j => o.acceleration • newton j)
      (fun j => o.acceleration • old j) i = o.acceleration • newhallSweep k h p newton old i :=
  newhallSweep_units o p k h newton old i

theorem leapfrogRun_units (o : Units) (half : ℝ) (l : List (ℝ × Bool)) (hf : UnitsFit o m m' u) :
    Agree o (leapfrogRun k m eps2 roche dt half l u)
      (leapfrogRun (o.consts k) m' eps2 (fun i j => o.length * roche i j) (o.time * dt) (o.time * half)
        (l.map fun x => (o.time * x.1, x.2)) (o.describes u)) := by
  induction l generalizing u with
  | nil => exact Agree.of_map o rfl
  | cons x l ih =>
    obtain ⟨time, record⟩ := x
    simp only [List.map_cons]
    unfold leapfrogRun
    exact Agree.bind o (leapfrogIterate_units o k eps2 roche dt half time record hf)
      fun v hv => ih (hf.kept (kept_iterate hv))

/-- Any number of iterations of LeapFrog, with or without records, in two units: if both runs end without a panic, the
results describe the same universe.  With a larger unit of length the new run ends without a panic if the first one does,
with a smaller one the first run does if the new one does; the reason is the ejection limit, see
`C107_violated_ejection`. -/
theorem C107_leapfrog_partial [FTan ℝ] (o : Units) (h : Scalable u) (fuel : Nat) (l : List (ℝ × Bool)) :
    let run := leapfrogRun k (withCreep k fuel m) eps2 roche dt (dt / 2) l u
    let run' := leapfrogRun (o.consts k) (withCreep (o.consts k) fuel m') eps2 (fun i j => o.length * roche i j) (o.time * dt) (o.time * dt / 2)
      (l.map fun x => (o.time * x.1, x.2)) (o.describes u)
    (∀ v v', run = some v → run' = some v' → v' = o.describes v)
      ∧ (o.length ≤ 1 → run.isSome → run'.isSome) ∧ (1 ≤ o.length → run'.isSome → run.isSome) := by
  intro run run'
  have a : Agree o run run' := by
    have := leapfrogRun_units (k := k) (eps2 := eps2) (roche := roche) (dt := dt) o (dt / 2) l
      (h.fit (o := o) (fuel := fuel) (k := k) (m := m) (m' := m'))
    rwa [← mul_div_assoc] at this
  refine ⟨fun v v' hv hv' => ?_, fun hl hs => ?_, fun hl hs => ?_⟩
  · rcases le_total o.length 1 with hl | hl
    · rw [a.1 hl v hv] at hv'
      cases hv'
      rfl
    · obtain ⟨w, h1, h2⟩ := a.2 hl v' hv'
      rw [hv] at h1
      cases h1
      exact h2
  · obtain ⟨v, hv⟩ := Option.isSome_iff_exists.1 hs
    rw [a.1 hl v hv]
    rfl
  · obtain ⟨v', hv'⟩ := Option.isSome_iff_exists.1 hs
    obtain ⟨v, h1, -⟩ := a.2 hl v' hv'
    rw [h1]
    rfl

theorem Isotropic.scalable (h : Isotropic u) : Scalable u :=
  ⟨fun i => ⟨fun e => (by obtain ⟨_, _, _, c⟩ := h.tides i _ (Or.inl e); cases c),
    fun e => (by obtain ⟨_, _, _, c⟩ := h.tides i _ (Or.inr e); cases c)⟩, h.gr⟩

/-- Units of length, time and mass that are 3, 1/5 and 2 times as large. -/
noncomputable def otherUnits : Units where
  length := 1 / 3
  time := 5
  mass := 1 / 2
  length_pos := by norm_num
  time_pos := by norm_num
  mass_pos := by norm_num

/-- A star and a planet that creep. -/
noncomputable def creepingUniverse : Universe ℝ 2 :=
  { particles := fun i => if i = 0 then
        { blank ℝ with mass := 2, massG := 2, radius := 1, momentOfInertia := 1, angularMomentum := ⟨0, 0, 1⟩,
                       tides := { (blank ℝ).tides with effect := .central (.creepCoplanar 3) },
                       flattening := { (blank ℝ).flattening with effect := .central (.creepCoplanar 3) } }
      else
        { blank ℝ with id := 1, mass := 1, massG := 1, radius := 1, momentOfInertia := 1, angularMomentum := ⟨0, 0, 1⟩,
                       inertialPosition := ⟨1, 0, 0⟩, inertialVelocity := ⟨0, 1, 0⟩,
                       tides := { (blank ℝ).tides with effect := .orbiting (.creepCoplanar 4) },
                       flattening := { (blank ℝ).flattening with effect := .orbiting (.creepCoplanar 4) } },
    evolvers := fun _ => ⟨.nonEvolving, [], [], [], [], [], 0⟩,
    consider := ⟨true, true, false, false, false, false⟩,
    grImplementation := .disabled,
    hosts := ⟨0, some 0, some 0, none, none, true, true, true, false, false⟩,
    table := fun _ => none }

theorem creepingUniverse_defined (k : Consts ℝ) (m : Models ℝ) :
    ∃ u', calculateAdditionalEffects k m 0 0 false true true .none (inertialToHeliocentric creepingUniverse)
      = some u' := by
  have hh : HasHosts (inertialToHeliocentric creepingUniverse) := by
    constructor <;> simp [inertialToHeliocentric, creepingUniverse]
  have hn := (additionalEffects_none (k := k) (m := m) (eps2 := 0) (time := 0) (evolution := false)
    (dL := true) (acc := true) (ignore := .none) hh rfl).not
  refine Option.ne_none_iff_exists'.1 (hn.2 ?_)
  rintro ⟨i, hi⟩
  have hI : ((inertialToHeliocentric creepingUniverse).particles i).momentOfInertia = 1 := by
    by_cases hi : i = 0 <;>
      simp [inertialToHeliocentric, creepingUniverse, mapHost, mapOthers, hi, toHeliocentric, zeroHeliocentric]
  rw [hI] at hi
  simp at hi

theorem creepingUniverse_scalable : Scalable creepingUniverse := by
  refine ⟨fun i => ?_, fun h => by simp [creepingUniverse] at h⟩
  by_cases hi : i = 0 <;> simp [creepingUniverse, hi]

example [FTan ℝ] : ∃ a, calculateAdditionalEffects k (withCreep k 100 m) 0 0 false true true .none
      (inertialToHeliocentric creepingUniverse) = some a
    ∧ calculateAdditionalEffects (otherUnits.consts k) (withCreep (otherUnits.consts k) 100 m) 0 (otherUnits.time * 0) false
      true true .none (inertialToHeliocentric (otherUnits.describes creepingUniverse)) = some (otherUnits.describes a) := by
  obtain ⟨a, ha⟩ := creepingUniverse_defined k (withCreep k 100 m)
  exact ⟨a, ha, by rw [C107_evaluation_partial (m := m) otherUnits creepingUniverse_scalable, ha]; rfl⟩

example [FTan ℝ] : ∃ v, leapfrogRun k (withCreep k 0 m) 0 (fun _ _ => 0) 1 (1 / 2) [(0, false)] (relativisticUniverse .anderson1975 ⟨1, 0, 1⟩ ⟨0, 0, 1⟩)
      = some v
    ∧ leapfrogRun (otherUnits.consts k) (withCreep (otherUnits.consts k) 0 m) 0 (fun _ _ => 0) 5 (5 / 2) [(0, false)]
      (otherUnits.describes (relativisticUniverse .anderson1975 ⟨1, 0, 1⟩ ⟨0, 0, 1⟩)) = some (otherUnits.describes v) := by
  obtain ⟨v, hv⟩ := relativisticUniverse_step (k := k) (m := withCreep k 0 m) .anderson1975 ⟨1, 0, 1⟩ ⟨0, 0, 1⟩
  have e : leapfrogRun k (withCreep k 0 m) 0 (fun _ _ => 0) 1 (1 / 2) [(0, false)] (relativisticUniverse .anderson1975 ⟨1, 0, 1⟩ ⟨0, 0, 1⟩)
      = some v := by
    simp only [leapfrogRun, leapfrogIterate, Bool.false_eq_true, if_false, hv, Option.bind_some]
  refine ⟨v, e, ?_⟩
  obtain ⟨h1, h2, -⟩ := C107_leapfrog_partial (k := k) (m := m) (m' := m) (eps2 := 0) (dt := 1) (roche := fun _ _ => 0)
    otherUnits (relativisticUniverse_isotropic ⟨1, 0, 1⟩ ⟨0, 0, 1⟩).scalable 0 [(0, false)]
  have hs := h2 (by norm_num [otherUnits]) (by rw [e]; rfl)
  obtain ⟨v', hv'⟩ := Option.isSome_iff_exists.1 hs
  rw [h1 v v' e hv'] at hv'
  have n1 : otherUnits.time = 5 := rfl
  simpa [n1] using hv'

/-! ## Kidder's relativity -/

theorem kidderFirstOrder_units (o : Units) (host q : Particle ℝ) :
    kidderFirstOrder (o.consts k) (o.sees host) (o.sees q) = o.acceleration • kidderFirstOrder k host q := by
  have hL := o.length_pos
  have hT := o.time_pos
  unfold kidderFirstOrder
  simp only [Units.sees, Units.gr, Units.consts, ← mul_add]
  dims
  have e : (lit 1 + lit 3 * q.gr.factor) * ((o.length / o.time) ^ 2 * q.gr.normVelocity2)
      - lit 2 * (lit 2 + q.gr.factor) * (o.length ^ 3 / o.time ^ 2 * (host.massG + q.massG)) / (o.length * q.gr.distance)
      - lit (3/2) * q.gr.factor * (o.length / o.time * q.gr.radialVelocity * (o.length / o.time * q.gr.radialVelocity))
      = (o.length / o.time) ^ 2 * ((lit 1 + lit 3 * q.gr.factor) * q.gr.normVelocity2
      - lit 2 * (lit 2 + q.gr.factor) * (host.massG + q.massG) / q.gr.distance
      - lit (3/2) * q.gr.factor * (q.gr.radialVelocity * q.gr.radialVelocity)) := by
    field_simp
  rw [e]
  generalize (lit 1 + lit 3 * q.gr.factor) * q.gr.normVelocity2
      - lit 2 * (lit 2 + q.gr.factor) * (host.massG + q.massG) / q.gr.distance
      - lit (3/2) * q.gr.factor * (q.gr.radialVelocity * q.gr.radialVelocity) = x
  generalize host.massG + q.massG = y
  generalize (lit 2 - q.gr.factor) = z
  ext <;> parts <;> field_simp

/-- The second order terms are not an acceleration but an acceleration times a squared velocity. -/
theorem kidderSecondOrder_units (o : Units) (host q : Particle ℝ) :
    kidderSecondOrder (o.consts k) (o.sees host) (o.sees q)
      = (o.acceleration * o.velocity ^ 2) • kidderSecondOrder k host q := by
  have hL := o.length_pos
  have hT := o.time_pos
  unfold kidderSecondOrder
  simp only [Units.sees, Units.gr, Units.consts, ← mul_add]
  dims
  generalize host.massG + q.massG = y
  ext <;> parts <;> push_cast <;> field_simp

/-- The spin-orbit terms are an acceleration times a volume. -/
theorem kidderSpinOrbit_units (o : Units) (host q : Particle ℝ) :
    kidderSpinOrbit (o.consts k) (o.sees host) (o.sees q)
      = (o.acceleration * o.length ^ 3) • kidderSpinOrbit k host q := by
  have hL := o.length_pos
  have hT := o.time_pos
  have hM := o.mass_pos
  unfold kidderSpinOrbit rotationalMomentum hadamard
  simp only [Units.sees, Units.gr, Units.consts, ← mul_add, ← mul_sub]
  dims
  ext <;> parts <;> push_cast <;> field_simp

theorem kidderCompanionTorque_units (o : Units) (host q : Particle ℝ) :
    kidderCompanionTorque (o.consts k) (o.sees host) (o.sees q)
      = (o.torque * o.length ^ 3) • kidderCompanionTorque k host q := by
  have hL := o.length_pos
  have hT := o.time_pos
  have hM := o.mass_pos
  unfold kidderCompanionTorque newtonianOrbitalMomentum rotationalMomentum
  simp only [Units.sees, Units.gr, Units.consts, ← mul_add]
  dims
  ext <;> parts <;> push_cast <;> field_simp

theorem evaluation_spin_units {o : Units} {time : ℝ} {evolution dL : Bool} {ignore : Ignore} {a b : Universe ℝ n}
    (ha : calculateAdditionalEffects k m eps2 time evolution dL true ignore (inertialToHeliocentric u) = some a)
    (hb : calculateAdditionalEffects (o.consts k) m' eps2 (o.time * time) evolution dL true ignore
      (inertialToHeliocentric (o.describes u)) = some b)
    (cg : u.consider.gr = true) {h : Fin n} (hh : u.hosts.gr = some h) (i : Fin n) :
    (b.particles i).spin = (1 / o.time) • (a.particles i).spin
      ∧ (b.particles i).momentOfInertia = o.mass * o.length ^ 2 * (a.particles i).momentOfInertia := by
  rw [inertialToHeliocentric_units] at hb
  unfold calculateAdditionalEffects at ha hb
  rw [initializeAll_units] at hb
  cases e1 : initializeAll dL true (inertialToHeliocentric u) with
  | none => rw [e1] at ha; cases ha
  | some u1 =>
    rw [e1] at ha hb
    simp only [Option.map_some] at ha hb
    rw [calculateSpinAndEvolving_units] at hb
    obtain ⟨c1, -, d1, -⟩ := initializeAll_totals e1
    cases e2 : calculateSpinAndEvolving k time evolution u1 with
    | none => rw [e2] at ha; cases ha
    | some u2 =>
      rw [e2] at ha hb
      simp only [Option.map_some] at ha hb
      obtain ⟨-, c2, -, d2, -⟩ := calculateSpinAndEvolving_step e2
      have g2 : u2.consider.gr = true := by rw [c2, c1]; exact cg
      have t2 : u2.hosts.gr = some h := by rw [d2, d1]; exact hh
      obtain ⟨-, -, -, x, -⟩ := effects_gr g2 t2 ha
      obtain ⟨-, -, -, y, -⟩ := effects_gr (u := o.describes u2) g2 t2 hb
      have x1 := congrArg Particle.spin (x i)
      have y1 := congrArg Particle.spin (y i)
      have x2 := congrArg Particle.momentOfInertia (x i)
      have y2 := congrArg Particle.momentOfInertia (y i)
      have x1 : (a.particles i).spin = (u2.particles i).spin := x1
      have y1 : (b.particles i).spin = (1 / o.time) • (u2.particles i).spin := y1
      have x2 : (a.particles i).momentOfInertia = (u2.particles i).momentOfInertia := x2
      have y2 : (b.particles i).momentOfInertia = o.mass * o.length ^ 2 * (u2.particles i).momentOfInertia := y2
      exact ⟨by rw [x1, y1], by rw [x2, y2]⟩

/-- What relativity finds for a companion and its result, in the old and in new units. -/
theorem kidder_units {time : ℝ} {evolution dL : Bool} {ignore : Ignore} {a : Universe ℝ n} {h : Fin n}
    (hok : GrHostOk u) (hh : u.hosts.gr = some h) (cg : u.consider.gr = true)
    (hg : (u.particles h).gr.effect = .central .kidder1995)
    (hv : (u.particles u.hosts.mostMassive).heliocentricVelocity = 0)
    (ha : calculateAdditionalEffects k m eps2 time evolution dL true ignore (inertialToHeliocentric u) = some a)
    (i : Fin n) (hi : i ≠ h) (ho : (u.particles i).gr.effect.isOrbiting = true) :
    ∃ P : Fin n → Particle ℝ,
      (∀ j, (P j).massG = (u.particles j).massG ∧ (P j).mass = (u.particles j).mass
        ∧ (P j).spin = (a.particles j).spin ∧ (P j).momentOfInertia = (a.particles j).momentOfInertia)
      ∧ GrGeometry ((u.particles i).inertialPosition - (u.particles h).inertialPosition)
          ((u.particles i).inertialVelocity - (u.particles h).inertialVelocity) (P i).gr
      ∧ (P i).gr.factor = (u.particles h).massG * (u.particles i).massG
              / ((u.particles h).massG + (u.particles i).massG) ^ 2
      ∧ (a.particles i).gr.acceleration = kidderTotal k (P h) (P i)
      ∧ (a.particles i).gr.dAngularMomentumDt = kidderCompanionTorque k (P h) (P i)
      ∧ ∀ (o : Units) (m' : Models ℝ) (b : Universe ℝ n),
        calculateAdditionalEffects (o.consts k) m' eps2 (o.time * time) evolution dL true ignore
          (inertialToHeliocentric (o.describes u)) = some b →
        (b.particles i).gr.acceleration = kidderTotal (o.consts k) (o.sees (P h)) (o.sees (P i))
        ∧ (b.particles i).gr.dAngularMomentumDt = kidderCompanionTorque (o.consts k) (o.sees (P h)) (o.sees (P i)) := by
  obtain ⟨P, pa, pb, -, pd, -⟩ := gr_evaluation hok hh cg (Or.inl hg) hv ha
  have eP : generalRelativity k eps2 ignore h P = kidder k h P := by
    unfold generalRelativity
    rw [(pa h).2.2.2.2.2.1, hg]
  obtain ⟨p1, -, -⟩ := kidder_result k h P
  have hP : (P i).gr.effect.isOrbiting = true := by rw [(pa i).2.2.2.2.2.1]; exact ho
  have geo := pb i hi ho
  have fac := geo.2 (Or.inl hg)
  refine ⟨P, fun j => ⟨(pa j).2.1, (pa j).1, (pa j).2.2.2.2.2.2.1, (pa j).2.2.2.2.2.2.2⟩, geo.1, fac,
    by rw [pd, eP, p1 i hi hP]; rfl, by rw [pd, eP, p1 i hi hP]; rfl, fun o m' b hb => ?_⟩
  have hL := o.length_pos
  have hT := o.time_pos
  have hV : 0 ≤ o.velocity := (div_pos hL hT).le
  have hv' : ((o.describes u).particles (o.describes u).hosts.mostMassive).heliocentricVelocity = 0 := by
    show o.velocity • (u.particles u.hosts.mostMassive).heliocentricVelocity = 0
    rw [hv, smul_zero]
  obtain ⟨Q, qa, qb, -, qd, -⟩ := gr_evaluation (u0 := o.describes u) ⟨hok.gr, hok.allGr⟩ hh cg (Or.inl hg) hv' hb
  have rot := evaluation_spin_units ha hb cg hh
  have eQ : generalRelativity (o.consts k) eps2 ignore h Q = kidder (o.consts k) h Q := by
    unfold generalRelativity
    rw [(qa h).2.2.2.2.2.1, show ((o.describes u).particles h).gr.effect = _ from hg]
  obtain ⟨q1, -, -⟩ := kidder_result (o.consts k) h Q
  have hQ : (Q i).gr.effect.isOrbiting = true := by rw [(qa i).2.2.2.2.2.1]; exact ho
  obtain ⟨f1, f2, f3, f4, f5, f6⟩ := geo.1
  obtain ⟨⟨g1, g2, g3, g4, g5, g6⟩, gac⟩ := qb i hi ho
  have gac := gac (Or.inl hg)
  have er : ((o.describes u).particles i).inertialPosition - ((o.describes u).particles h).inertialPosition
      = o.length • ((u.particles i).inertialPosition - (u.particles h).inertialPosition) := (smul_sub _ _ _).symm
  have ev : ((o.describes u).particles i).inertialVelocity - ((o.describes u).particles h).inertialVelocity
      = o.velocity • ((u.particles i).inertialVelocity - (u.particles h).inertialVelocity) := (smul_sub _ _ _).symm
  rw [er] at g1 g3 g4
  rw [ev] at g2 g4 g5 g6
  have d1 : (Q i).gr.position = (o.sees (P i)).gr.position := by rw [g1, ← f1]; rfl
  have d2 : (Q i).gr.velocity = (o.sees (P i)).gr.velocity := by rw [g2, ← f2]; rfl
  have d3 : (Q i).gr.distance = (o.sees (P i)).gr.distance := by
    rw [g3, Axes.norm2_smul, sqrt_units hL.le, ← f3]; rfl
  have d4 : (Q i).gr.radialVelocity = (o.sees (P i)).gr.radialVelocity := by
    show _ = o.velocity * (P i).gr.radialVelocity
    rw [g4, f4, Axes.norm2_smul, sqrt_units hL.le, Axes.smul_dot, Axes.dot_smul]
    field_simp
  have d5 : (Q i).gr.normVelocity2 = (o.sees (P i)).gr.normVelocity2 := by
    rw [g5, Axes.norm2_smul, ← f5]; rfl
  have d6 : (Q i).gr.normVelocity = (o.sees (P i)).gr.normVelocity := by
    rw [g6, Axes.norm2_smul, sqrt_units hV, ← f6]; rfl
  have d7 : (Q i).gr.factor = (o.sees (P i)).gr.factor := by
    show _ = (P i).gr.factor
    rw [gac, fac]
    show o.length ^ 3 / o.time ^ 2 * _ * (o.length ^ 3 / o.time ^ 2 * _)
      / (o.length ^ 3 / o.time ^ 2 * _ + o.length ^ 3 / o.time ^ 2 * _) ^ 2 = _
    rw [← mul_add]
    field_simp
  have mass : ∀ j, (Q j).mass = (o.sees (P j)).mass := fun j => by
    show _ = o.mass * _
    rw [(pa j).1]; exact (qa j).1
  have massG : ∀ j, (Q j).massG = (o.sees (P j)).massG := fun j => by
    show _ = o.length ^ 3 / o.time ^ 2 * _
    rw [(pa j).2.1]; exact (qa j).2.1
  have spin : ∀ j, rotationalMomentum (Q j) = rotationalMomentum (o.sees (P j)) := fun j => by
    show _ = (o.mass * o.length ^ 2 * (P j).momentOfInertia) • (1 / o.time) • (P j).spin
    unfold rotationalMomentum
    rw [(qa j).2.2.2.2.2.2.1, (qa j).2.2.2.2.2.2.2, (rot j).1, (rot j).2, (pa j).2.2.2.2.2.2.1, (pa j).2.2.2.2.2.2.2]
  have acc : (b.particles i).gr.acceleration = kidderTotal (o.consts k) (Q h) (Q i) := by
    rw [qd, eQ, q1 i hi hQ]; rfl
  have tor : (b.particles i).gr.dAngularMomentumDt = kidderCompanionTorque (o.consts k) (Q h) (Q i) := by
    rw [qd, eQ, q1 i hi hQ]; rfl
  rw [acc, tor]
  constructor
  · unfold kidderTotal kidderFirstOrder kidderSecondOrder kidderSpinOrbit
    dsimp only
    rw [d1, d2, d3, d4, d5, d6, d7, massG, massG, mass, mass, spin, spin]
  · unfold kidderCompanionTorque newtonianOrbitalMomentum
    dsimp only
    rw [d1, d2, d3, mass, mass, spin, spin]

/-- Kidder's relativity in other units: one part of the acceleration of a companion becomes the acceleration in the new
units, another one is too large by a factor of the dimension velocity^2, the third by a factor of the dimension length^3, and so
is the torque. -/
theorem C107_kidder_partial {time : ℝ} {evolution dL : Bool} {ignore : Ignore} {a : Universe ℝ n} {h : Fin n}
    (hok : GrHostOk u) (hh : u.hosts.gr = some h) (cg : u.consider.gr = true)
    (hg : (u.particles h).gr.effect = .central .kidder1995)
    (hv : (u.particles u.hosts.mostMassive).heliocentricVelocity = 0)
    (ha : calculateAdditionalEffects k m eps2 time evolution dL true ignore (inertialToHeliocentric u) = some a)
    (i : Fin n) (hi : i ≠ h) (ho : (u.particles i).gr.effect.isOrbiting = true) :
    ∃ A B C : Axes ℝ, (a.particles i).gr.acceleration = A + B + C
      ∧ ∀ (o : Units) (m' : Models ℝ) (b : Universe ℝ n),
        calculateAdditionalEffects (o.consts k) m' eps2 (o.time * time) evolution dL true ignore
          (inertialToHeliocentric (o.describes u)) = some b →
        (b.particles i).gr.acceleration = o.acceleration • (A + o.velocity ^ 2 • B + o.length ^ 3 • C)
        ∧ (b.particles i).gr.dAngularMomentumDt = (o.torque * o.length ^ 3) • (a.particles i).gr.dAngularMomentumDt := by
  obtain ⟨P, -, -, -, p1, p2, p3⟩ := kidder_units hok hh cg hg hv ha i hi ho
  refine ⟨_, _, _, p1, fun o m' b hb => ?_⟩
  obtain ⟨q1, q2⟩ := p3 o m' b hb
  rw [q1, q2, p2, kidderCompanionTorque_units]
  refine ⟨?_, rfl⟩
  unfold kidderTotal
  rw [kidderFirstOrder_units, kidderSecondOrder_units, kidderSpinOrbit_units]
  module

theorem describes_defined (o : Units) (i : GrImplementation) (l0 l1 : Axes ℝ) :
    ∃ b, calculateAdditionalEffects (o.consts k) m 0 (o.time * 0) false true true .none
      (inertialToHeliocentric (o.describes (relativisticUniverse i l0 l1))) = some b := by
  have hh : HasHosts (inertialToHeliocentric (o.describes (relativisticUniverse i l0 l1))) := by
    constructor <;> simp [inertialToHeliocentric, Units.describes, relativisticUniverse]
  have hn := (additionalEffects_none (k := o.consts k) (m := m) (eps2 := 0) (time := o.time * 0) (evolution := false)
    (dL := true) (acc := true) (ignore := .none) hh rfl).not
  refine Option.ne_none_iff_exists'.1 (hn.2 ?_)
  rintro ⟨j, hj⟩
  have hI : ((inertialToHeliocentric (o.describes (relativisticUniverse i l0 l1))).particles j).momentOfInertia
      = o.mass * o.length ^ 2 := by
    rw [inertialToHeliocentric_units]
    show o.mass * o.length ^ 2 * ((inertialToHeliocentric (relativisticUniverse i l0 l1)).particles j).momentOfInertia = _
    have : ((inertialToHeliocentric (relativisticUniverse i l0 l1)).particles j).momentOfInertia = 1 := by
      by_cases hi : j = 0 <;>
        simp [inertialToHeliocentric, relativisticUniverse, mapHost, mapOthers, hi, toHeliocentric, zeroHeliocentric]
    rw [this, mul_one]
  rw [hI] at hj
  simp [o.mass_pos.ne', o.length_pos.ne'] at hj

example : ∃ a, calculateAdditionalEffects k m 0 0 false true true .none
      (inertialToHeliocentric (relativisticUniverse .kidder1995 ⟨1, 0, 1⟩ ⟨1, 0, 0⟩)) = some a
    ∧ ∃ b, calculateAdditionalEffects (otherUnits.consts k) m 0 (otherUnits.time * 0) false true true .none
      (inertialToHeliocentric (otherUnits.describes (relativisticUniverse .kidder1995 ⟨1, 0, 1⟩ ⟨1, 0, 0⟩))) = some b
    ∧ (b.particles 1).gr.dAngularMomentumDt
      = (otherUnits.torque * otherUnits.length ^ 3) • (a.particles 1).gr.dAngularMomentumDt := by
  obtain ⟨a, ha⟩ := relativisticUniverse_defined .kidder1995 ⟨1, 0, 1⟩ ⟨1, 0, 0⟩ k m 0 .none
  obtain ⟨b, hb⟩ := describes_defined (k := k) (m := m) otherUnits .kidder1995 ⟨1, 0, 1⟩ ⟨1, 0, 0⟩
  obtain ⟨_, _, _, _, h⟩ := C107_kidder_partial (relativisticUniverse_ok _ _ _) (h := 0) rfl rfl rfl
    (relativisticUniverse_velocity _ _ _) ha 1 (by decide)
    (by rw [relativisticUniverse_orbiting _ _ _ _ (by decide)]; rfl)
  exact ⟨a, ha, b, hb, (h otherUnits m b hb).2⟩

/-- With Kidder's relativity the accelerations depend on the units: two bodies that do not rotate, in any units in which
velocities are other numbers. -/
theorem C107_violated (k : Consts ℝ) (m : Models ℝ) (hc : k.c2 ≠ 0) (o : Units) (ho : o.length ≠ o.time) :
    let u := relativisticUniverse .kidder1995 0 0
    ∃ a b, calculateAdditionalEffects k m 0 0 false true true .none (inertialToHeliocentric u) = some a
      ∧ calculateAdditionalEffects (o.consts k) m 0 (o.time * 0) false true true .none
          (inertialToHeliocentric (o.describes u)) = some b
      ∧ (b.particles 1).inertialAdditionalAcceleration
          ≠ o.acceleration • (a.particles 1).inertialAdditionalAcceleration := by
  intro u
  obtain ⟨a, ha⟩ := relativisticUniverse_defined .kidder1995 0 0 k m 0 .none
  obtain ⟨b, hb⟩ := describes_defined (k := k) (m := m) o .kidder1995 0 0
  refine ⟨a, b, ha, hb, ?_⟩
  obtain ⟨P, pm, geo, fac, p1, -, p3⟩ := kidder_units (relativisticUniverse_ok _ _ _) (h := 0) rfl rfl rfl
    (relativisticUniverse_velocity _ _ _) ha 1 (by decide)
    (by rw [relativisticUniverse_orbiting _ _ _ _ (by decide)]; rfl)
  obtain ⟨q1, -⟩ := p3 o m b hb
  have hr : (u.particles 1).inertialPosition - (u.particles 0).inertialPosition = ⟨1, 0, 0⟩ := by
    ext <;> simp [u, relativisticUniverse, blank]
  have hv : (u.particles 1).inertialVelocity - (u.particles 0).inertialVelocity = ⟨0, 1, 0⟩ := by
    ext <;> simp [u, relativisticUniverse, blank]
  rw [show (relativisticUniverse .kidder1995 0 0) = u from rfl, hr, hv] at geo
  obtain ⟨f1, f2, f3, f4, f5, f6⟩ := geo
  have mG : ∀ j, (P j).massG = 1 := fun j => by
    rw [(pm j).1]
    by_cases hj : j = 0 <;> simp [relativisticUniverse, hj]
  have spin : ∀ j, (a.particles j).spin = 0 := by
    intro j
    have ha := ha
    unfold calculateAdditionalEffects at ha
    split at ha
    · simp at ha
    rename_i u1 h1
    split at ha
    · simp at ha
    rename_i u2 h2
    obtain ⟨c1, -, d1, -⟩ := initializeAll_totals h1
    obtain ⟨hsp, c2, -, d2, -⟩ := calculateSpinAndEvolving_step h2
    obtain ⟨-, -, -, x, -⟩ := effects_gr (h := 0) (by rw [c2, c1]; rfl) (by rw [d2, d1]; rfl) ha
    have e1 : (a.particles j).spin = (u2.particles j).spin := by
      have := congrArg Particle.spin (x j); exact this
    obtain ⟨inertia, s1, -⟩ := spinAndEvolving_spin (hsp j)
    have e3 : (u1.particles j).angularMomentum = ((inertialToHeliocentric u).particles j).angularMomentum := by
      have := congrArg Particle.angularMomentum (initializeAll_core h1 j); exact this
    have e6 : ((inertialToHeliocentric u).particles j).angularMomentum = 0 := by
      by_cases hi : j = 0 <;>
        simp [u, inertialToHeliocentric, relativisticUniverse, mapHost, mapOthers, hi, toHeliocentric, zeroHeliocentric]
    rw [e1, s1, e3, e6]
    simp [Axes.sdiv_eq_smul]
  have sp : ∀ j, rotationalMomentum (P j) = 0 := fun j => by
    unfold rotationalMomentum
    rw [(pm j).2.2.1, spin, smul_zero]
  have so : kidderSpinOrbit k (P 0) (P 1) = 0 := by
    unfold kidderSpinOrbit hadamard
    dsimp only
    rw [sp, sp]
    ext <;> simp [Axes.sdiv_eq_smul, Axes.cross]
  have second : (kidderSecondOrder k (P 0) (P 1)).x ≠ 0 := by
    unfold kidderSecondOrder
    dsimp only
    have eta : (P 1).gr.factor = 1 / 4 := by
      rw [fac, show (relativisticUniverse .kidder1995 0 0).particles 0 = u.particles 0 from rfl]
      norm_num [u, relativisticUniverse]
    rw [f1, f2, f3, f4, f5, eta, mG, mG]
    simp [Axes.norm2, Axes.dot, ipow, Axes.sdiv_eq_smul]
    refine ⟨hc, ?_⟩
    norm_num
  have hV : o.velocity ^ 2 ≠ 1 := by
    intro e
    have hp : 0 < o.velocity := div_pos o.length_pos o.time_pos
    have : o.velocity = 1 := by nlinarith
    exact ho ((div_eq_one_iff_eq o.time_pos.ne').1 this)
  have hA : o.acceleration ≠ 0 := (div_pos o.length_pos (pow_pos o.time_pos 2)).ne'
  rw [C94_acceleration ha, C94_acceleration hb]
  have ca : (inertialToHeliocentric u).consider = ⟨false, false, true, false, false, false⟩ := rfl
  have cb : (inertialToHeliocentric (o.describes u)).consider = ⟨false, false, true, false, false, false⟩ := rfl
  rw [ca, cb]
  suffices h : (b.particles 1).gr.acceleration ≠ o.acceleration • (a.particles 1).gr.acceleration by simpa using h
  rw [q1, p1]
  unfold kidderTotal
  rw [kidderFirstOrder_units, kidderSecondOrder_units, kidderSpinOrbit_units, so]
  intro e
  have ex := congrArg Axes.x e
  simp only [Axes.add_x, Axes.smul_x, Axes.zero_x, mul_zero, add_zero] at ex
  have : o.acceleration * (o.velocity ^ 2 - 1) * (kidderSecondOrder k (P 0) (P 1)).x = 0 := by linear_combination ex
  rcases mul_eq_zero.1 this with h | h
  · rcases mul_eq_zero.1 h with h | h
    · exact hA h
    · exact hV (by linarith)
  · exact second h

/-! ## The limit of ejection -/

/-- The run is stopped or not, depending on the unit of length: two bodies at a distance of 1, and in units of which 200
make an old one. -/
theorem C107_violated_ejection (k : Consts ℝ) : ∃ (o : Units) (u : Universe ℝ 2),
    (universeGravity k (fun _ _ => 0) .none u).isSome
      ∧ universeGravity (o.consts k) (fun i j => o.length * (fun _ _ => 0 : Fin 2 → Fin 2 → ℝ) i j) .none (o.describes u) = none := by
  let o : Units := ⟨200, 1, 1, by norm_num, by norm_num, by norm_num⟩
  let u := relativisticUniverse .anderson1975 0 0
  have d : Gravity.distance2 (bodyOf (u.particles 0)) (bodyOf (u.particles 1)) = 1 := by
    simp [u, Gravity.distance2, bodyOf, relativisticUniverse, blank, Axes.norm2, Axes.dot]
  have d' : Gravity.distance2 (bodyOf (o.sees (u.particles 0))) (bodyOf (o.sees (u.particles 1))) = 40000 := by
    have : Gravity.distance2 (bodyOf (o.sees (u.particles 0))) (bodyOf (o.sees (u.particles 1)))
        = o.length ^ 2 * Gravity.distance2 (bodyOf (u.particles 0)) (bodyOf (u.particles 1)) := by
      unfold Gravity.distance2
      rw [← Axes.norm2_smul, smul_sub]
      rfl
    rw [this, d]
    norm_num [o]
  refine ⟨o, u, ?_, ?_⟩
  · obtain ⟨a, ha⟩ : ∃ a, Gravity.gravity k.g (fun i => bodyOf (u.particles i)) (fun _ _ => 0) .none u.hosts.mostMassive
        = .ok a := by
      rw [Gravity.C45_partial_goes_on_iff _ _ _ _ _ Gravity.maxDistance2_pos]
      intro i j hij
      obtain ⟨rfl, rfl⟩ : i = 0 ∧ j = 1 := by omega
      refine ⟨?_, ?_, ?_⟩
      · unfold Gravity.InsideRoche
        rw [d]
        simp
      · unfold Gravity.Overlap
        rw [d]
        simp [bodyOf, u, relativisticUniverse, blank]
      · rintro ⟨-, hf⟩
        unfold Gravity.Far at hf
        rw [d] at hf
        simp [Gravity.maxDistance2] at hf
    unfold universeGravity
    rw [ha]
    rfl
  · unfold universeGravity
    cases e : Gravity.gravity (o.consts k).g (fun i => bodyOf ((o.describes u).particles i))
      (fun i j => o.length * (fun _ _ => 0 : Fin 2 → Fin 2 → ℝ) i j) .none (o.describes u).hosts.mostMassive with
    | error s => rfl
    | ok a =>
      have := (Gravity.C45_partial_goes_on_iff _ _ _ _ _ Gravity.maxDistance2_pos).1 ⟨a, e⟩ 0 1 (by decide)
      refine absurd ⟨rfl, ?_⟩ this.2.2
      show ltb Gravity.maxDistance2 (Gravity.distance2 (bodyOf (o.sees (u.particles 0))) (bodyOf (o.sees (u.particles 1)))) = true
      rw [d', ltb_real]
      simp [Gravity.maxDistance2]
      norm_num

end
end Posidonius.Univ
