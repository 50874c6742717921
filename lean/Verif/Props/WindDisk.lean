import Verif.Lemmas.DiskUniverse
import Verif.Props.Tides
import Mathlib.Topology.Instances.Real.Lemmas

/-! Property C41: the disk and the stellar wind. -/

namespace Posidonius.Univ
open Finset
open Gravity (Ignore)

variable {n : Nat}

/-! ## A system for the examples -/

/-- A host with a disk from 1 to 100 units and a wind, and a companion at distance `x`. -/
noncomputable def diskUniverse (x : ℝ) : Universe ℝ 2 :=
  { particles := fun j => if j = 0 then
        { blank ℝ with mass := 1, massG := 1, momentOfInertia := 1, angularMomentum := ⟨0, 0, 3⟩,
                       disk := { (blank ℝ).disk with effect := .central ⟨1, 100, 1000, 1, 1, 1⟩ },
                       wind := Wind.new true 1 2 }
      else
        { blank ℝ with id := 1, mass := 1, massG := 1, momentOfInertia := 1,
                       inertialPosition := ⟨x, 0, 0⟩, inertialVelocity := ⟨1, 1, 1⟩,
                       disk := { (blank ℝ).disk with effect := .orbiting } },
    evolvers := fun _ => ⟨.nonEvolving, [], [], [], [], [], 0⟩,
    consider := ⟨false, false, false, true, true, false⟩,
    grImplementation := .disabled,
    hosts := ⟨0, none, none, none, some 0, true, false, false, false, true⟩,
    table := fun _ => none }

theorem diskUniverse_ok (x : ℝ) : DiskHostOk (diskUniverse x) := by
  constructor <;> simp [diskUniverse]

theorem diskUniverse_mass (x : ℝ) (j : Fin 2) : ((diskUniverse x).particles j).mass = 1 := by
  by_cases hj : j = 0 <;> simp [diskUniverse, hj]

theorem diskUniverse_orbiting (x : ℝ) (j : Fin 2) (hj : j ≠ 0) :
    ((diskUniverse x).particles j).disk.effect.isOrbiting = true := by
  simp [diskUniverse, hj, DiskEffect.isOrbiting]

theorem diskUniverse_velocity (x : ℝ) :
    ((diskUniverse x).particles (diskUniverse x).hosts.mostMassive).heliocentricVelocity = 0 := by
  simp [diskUniverse, blank]

theorem diskUniverse_defined (x : ℝ) (k : Consts ℝ) (m : Models ℝ) :
    ∃ u', calculateAdditionalEffects k m 0 0 false true true .none
      (inertialToHeliocentric (diskUniverse x)) = some u' := by
  have hh : HasHosts (inertialToHeliocentric (diskUniverse x)) := by
    constructor <;> simp [inertialToHeliocentric, diskUniverse]
  have hn := (additionalEffects_none (k := k) (m := m) (eps2 := 0) (time := 0) (evolution := false)
    (dL := true) (acc := true) (ignore := .none) hh rfl).not
  refine Option.ne_none_iff_exists'.1 (hn.2 ?_)
  rintro ⟨j, hj⟩
  have hI : ((inertialToHeliocentric (diskUniverse x)).particles j).momentOfInertia = 1 := by
    by_cases hi : j = 0 <;>
      simp [inertialToHeliocentric, diskUniverse, mapHost, mapOthers, hi, toHeliocentric,
        zeroHeliocentric]
  rw [hI] at hj
  simp at hj

theorem diskUniverse_apart {x : ℝ} (hx : x ≠ 0) :
    ((diskUniverse x).particles 1).inertialPosition ≠ ((diskUniverse x).particles 0).inertialPosition := by
  intro e
  have e := congrArg Axes.x e
  simp [diskUniverse, blank] at e
  exact hx e

/-! ## The disk -/

/-- The surface density of the gas at distance `r` from the host and time `t`. -/
noncomputable def gasDensity (d : DiskProperties ℝ) (t r : ℝ) : ℝ :=
  if d.innerEdgeDistance < r then
    d.surfaceDensityNormalization / r * Real.exp (-(r / d.outerEdgeDistance))
      * (1 - Real.sqrt (d.innerEdgeDistance / r)) * Real.exp (-(t / d.lifetime))
  else 0

/-- The viscosity of the gas: `alpha` times the squared speed of sound by the frequency of the orbits. -/
noncomputable def gasViscosity (k : Consts ℝ) (d : DiskProperties ℝ) (hostMass hostMassG r : ℝ) : ℝ :=
  d.alpha * (k.boltzmann * (280 * r ^ (-1 / 2 : ℝ) * hostMass) / (d.meanMolecularWeight * k.massHydrogen))
    / Real.sqrt (hostMassG / r ^ 3)

/-- The rate of migration (the inverse of the timescale) of a body of mass `m` with semi-major axis `a`. -/
noncomputable def migrationRate (k : Consts ℝ) (d : DiskProperties ℝ) (t hostMass hostMassG m r a : ℝ) : ℝ :=
  3 / 2 * gasViscosity k d hostMass hostMassG r * min 1 (2 * gasDensity d t r * a ^ 2 / m) / a ^ 2

/-- The acceleration by migration and by damping of eccentricity and inclination (Alibert et al. 2013,
equations 8-10, with damping ten times as fast as migration). -/
noncomputable def dampingAcceleration (rate : ℝ) (r v : Axes ℝ) : Axes ℝ :=
  -(rate • v) - (20 * rate * r.dot v / r.norm2) • r - (20 * rate * v.z) • ⟨0, 0, 1⟩

/-- The disk part of the bodies after `calculate_disk_interaction_acceleration`. -/
theorem diskAcceleration_result (k : Consts ℝ) (time : ℝ) (h : Fin n) (p : Fin n → Particle ℝ)
    {d : DiskProperties ℝ} (hd : (p h).disk.effect = .central d) :
    (∀ i, i ≠ h → (p i).disk.effect.isOrbiting = true → (diskAcceleration k time h p i).disk.acceleration
        = (1 / (p i).mass) • diskForce (p i) (companionTimescale k time d (p h) (p i)))
      ∧ (∀ i, i ≠ h → (p i).disk.effect.isOrbiting = false → (diskAcceleration k time h p i).disk = (p i).disk)
      ∧ ((p h).disk.acceleration = 0 → (diskAcceleration k time h p h).disk.acceleration
        = (-(1 / (p h).mass)) • ∑ i ∈ univ.erase h, diskForceTerm k time d (p h) (p i)) := by
  have e : (p h).disk.effect.central? = some d := by rw [hd]; rfl
  have act : diskAcceleration k time h p = if (others h).isEmpty then mapOthers h (diskStep k time d) p
    else mapHost h (fun host => { host with disk := { host.disk with
      acceleration := (lit (-1) * (lit 1 / host.mass)) • sumOthers h (diskForceTerm k time d (p h)) p } })
        (mapOthers h (diskStep k time d) p) := by
    unfold diskAcceleration
    rw [e]
  have hother : ∀ i, i ≠ h → diskAcceleration k time h p i = diskStep k time d (p h) (p i) := by
    intro i hi
    rw [act]
    split
    · rw [mapOthers_other hi]
    · rw [mapHost_other hi, mapOthers_other hi]
  refine ⟨fun i hi ho => ?_, fun i hi ho => ?_, fun h0 => ?_⟩
  · rw [hother i hi]
    unfold diskStep
    rw [if_pos ho]
    simp
  · rw [hother i hi]
    unfold diskStep
    rw [if_neg (by rw [ho]; simp)]
  · rw [act]
    split
    · rename_i hemp
      rw [mapOthers_host, h0, ← others_toFinset, List.isEmpty_iff.1 hemp]
      simp
    · rw [mapHost_host, mapOthers_host, sumOthers_real]
      simp

/-- The disk leaves the total momentum of the bodies unchanged. -/
theorem C41_momentum {k : Consts ℝ} {m : Models ℝ} {eps2 time : ℝ} {evolution dL : Bool}
    {ignore : Ignore} {u u' : Universe ℝ n} {h : Fin n} {d : DiskProperties ℝ}
    (hok : DiskHostOk u) (hh : u.hosts.disk = some h) (cd : u.consider.disk = true)
    (hd : (u.particles h).disk.effect = .central d)
    (hv : (u.particles u.hosts.mostMassive).heliocentricVelocity = 0)
    (hm : ∀ i, (u.particles i).mass ≠ 0)
    (hz : ∀ i, i ≠ h → (u.particles i).disk.effect.isOrbiting = false → (u.particles i).disk.acceleration = 0)
    (hu : calculateAdditionalEffects k m eps2 time evolution dL true ignore (inertialToHeliocentric u)
      = some u') :
    ∑ i, (u.particles i).mass • (u'.particles i).disk.acceleration = 0 := by
  obtain ⟨P, a, b, -, c, e, -⟩ := disk_evaluation hok hh cd hd hv hu
  obtain ⟨r1, r2, r3⟩ := diskAcceleration_result k time h P (d := d) (by rw [(a h).2.2]; exact hd)
  rw [← add_sum_erase univ _ (mem_univ h), e, r3 b, smul_sum, smul_sum, ← sum_add_distrib]
  refine sum_eq_zero fun i hi => ?_
  have hi' := ne_of_mem_erase hi
  have mh := hm h
  have mi := hm i
  rw [e, (a h).1]
  unfold diskForceTerm
  by_cases ho : (P i).disk.effect.isOrbiting = true
  · rw [if_pos ho, r1 i hi' ho, (a i).1, smul_smul, smul_smul, ← add_smul]
    rw [show (u.particles h).mass * -(1 / (u.particles h).mass) + (u.particles i).mass * (1 / (u.particles i).mass)
      = 0 by field_simp; ring, zero_smul]
  · have ho' : (P i).disk.effect.isOrbiting = false := by simpa using ho
    have hou : (u.particles i).disk.effect.isOrbiting = false := by rw [← (a i).2.2]; exact ho'
    rw [if_neg ho, r2 i hi' ho', c i hi' hou, hz i hi' hou]
    rw [show (Axes.zero : Axes ℝ) = 0 from rfl]
    simp

example (k : Consts ℝ) (m : Models ℝ) : ∃ u', calculateAdditionalEffects k m 0 0 false true true .none
      (inertialToHeliocentric (diskUniverse 5)) = some u'
    ∧ ∑ i, ((diskUniverse 5).particles i).mass • (u'.particles i).disk.acceleration = 0 := by
  obtain ⟨u', hu⟩ := diskUniverse_defined 5 k m
  exact ⟨u', hu, C41_momentum (diskUniverse_ok 5) rfl rfl rfl (diskUniverse_velocity 5)
    (fun i => by rw [diskUniverse_mass]; norm_num)
    (fun i hi ho => by rw [diskUniverse_orbiting 5 i hi] at ho; simp at ho) hu⟩

/-- A companion in the disk is accelerated by migration and damping, with the rate that belongs to its
distance, semi-major axis and the time. -/
theorem C41_force {k : Consts ℝ} {m : Models ℝ} {eps2 time : ℝ} {evolution dL : Bool}
    {ignore : Ignore} {u u' : Universe ℝ n} {h : Fin n} {d : DiskProperties ℝ}
    (hok : DiskHostOk u) (hh : u.hosts.disk = some h) (cd : u.consider.disk = true)
    (hd : (u.particles h).disk.effect = .central d)
    (hv : (u.particles u.hosts.mostMassive).heliocentricVelocity = 0)
    (hu : calculateAdditionalEffects k m eps2 time evolution dL true ignore (inertialToHeliocentric u)
      = some u') (i : Fin n) (hi : i ≠ h) (ho : (u.particles i).disk.effect.isOrbiting = true)
    (hm : (u.particles i).mass ≠ 0)
    (hsep : (u.particles i).inertialPosition ≠ (u.particles h).inertialPosition)
    (hmu : (u.particles i).massG + (u.particles h).massG ≠ 0) :
    let r := (u.particles i).inertialPosition - (u.particles h).inertialPosition
    let v := (u.particles i).inertialVelocity - (u.particles h).inertialVelocity
    let distance := Real.sqrt r.norm2
    let a := 1 / (2 / distance - v.norm2 / ((u.particles i).massG + (u.particles h).massG))
    (u'.particles i).disk.acceleration
      = dampingAcceleration (migrationRate k d time (u.particles h).mass (u.particles h).massG
          (u.particles i).mass distance a) r v := by
  intro r v distance a
  obtain ⟨P, pa, -, pg, -, e, -⟩ := disk_evaluation hok hh cd hd hv hu
  obtain ⟨r1, -, -⟩ := diskAcceleration_result k time h P (d := d) (by rw [(pa h).2.2]; exact hd)
  rw [e, r1 i hi (by rw [(pa i).2.2]; exact ho)]
  obtain ⟨g1, g2, g3, g4⟩ := pg i hi ho
  have dpos : 0 < distance := by
    refine Real.sqrt_pos.2 (lt_of_le_of_ne (Axes.dot_self_nonneg _) fun e => hsep ?_)
    exact sub_eq_zero.1 (Axes.dot_self_eq_zero e.symm)
  have d2 : distance * distance = r.norm2 := Real.mul_self_sqrt (Axes.dot_self_nonneg _)
  have sma : diskSma (P h) (P i) = a := by
    unfold diskSma
    rw [g3, g4, (pa i).2.1, (pa h).2.1]
    change (_ : ℝ) * distance / _ = _
    simp only [lit_real]
    push_cast
    change _ = 1 / (2 / distance - v.norm2 / _)
    rw [show (2 / distance - v.norm2 / ((u.particles i).massG + (u.particles h).massG))
      = (2 * ((u.particles i).massG + (u.particles h).massG) - distance * v.norm2)
        / (((u.particles i).massG + (u.particles h).massG) * distance) by field_simp]
    rw [one_div_div]
  have dens : surfaceDensity d time distance = gasDensity d time distance := by
    unfold surfaceDensity gasDensity
    simp only [lit_real, ltb_real, sqrt_real, exp_real]
    by_cases hin : d.innerEdgeDistance < distance
    · rw [if_pos (by simpa using hin), if_pos hin]
      push_cast
      rw [show (-1 * distance / d.outerEdgeDistance) = -(distance / d.outerEdgeDistance) by ring,
        show (-time / d.lifetime) = -(time / d.lifetime) by ring]
      ring
    · rw [if_neg (by simpa using hin), if_neg hin]
      simp
  have visc : diskViscosity k d (u.particles h).mass (u.particles h).massG distance
      = gasViscosity k d (u.particles h).mass (u.particles h).massG distance := by
    unfold diskViscosity gasViscosity diskTemperature keplerianFrequency
    simp
  have mn : ∀ x y : ℝ, fmin x y = min x y := by
    intro x y
    unfold fmin
    simp only [ltb_real, eqb_real]
    by_cases hxy : y < x
    · simp [hxy, min_eq_right hxy.le]
    · simp [hxy, min_eq_left (not_lt.1 hxy)]
  set rate := migrationRate k d time (u.particles h).mass (u.particles h).massG (u.particles i).mass distance a
    with hrate
  have tau : (companionTimescale k time d (P h) (P i))⁻¹ = rate := by
    unfold companionTimescale migrationTimescale gasRadialVelocity
    rw [sma, g3, (pa h).1, (pa h).2.1, (pa i).1]
    change (-a / ((_ : ℝ) * diskViscosity k d _ _ distance / _ * fmin _ (_ * surfaceDensity d time distance * _ / _)))⁻¹
      = _
    rw [dens, visc, mn, hrate]
    unfold migrationRate
    simp only [lit_real, ipow_real]
    push_cast
    rw [inv_div]
    by_cases ha : a = 0
    · rw [ha]; simp
    · field_simp
  have frc : diskForce (P i) (companionTimescale k time d (P h) (P i))
      = (u.particles i).mass • dampingAcceleration rate r v := by
    unfold diskForce dampingAcceleration
    dsimp only
    have g2' : (P i).disk.velocity = v := g2
    rw [g1, g2', g3, (pa i).1]
    change ((-(u.particles i).mass / _) • v + (_ * (_ / (distance * distance) * r.dot v)) • r + _ : Axes ℝ) = _
    rw [d2]
    generalize companionTimescale k time d (P h) (P i) = t at tau
    rw [← tau]
    have r0 : r.norm2 ≠ 0 := by rw [← d2]; positivity
    simp only [lit_real]
    push_cast
    by_cases ht : t = 0
    · rw [ht]
      ext <;> simp
    · clear_value v r
      ext <;> simp <;> field_simp <;> ring
  rw [frc, (pa i).1, smul_smul, one_div, inv_mul_cancel₀ hm, one_smul]

example (k : Consts ℝ) (m : Models ℝ) : ∃ u', calculateAdditionalEffects k m 0 0 false true true .none
      (inertialToHeliocentric (diskUniverse 5)) = some u'
    ∧ ∃ rate, (u'.particles 1).disk.acceleration = dampingAcceleration rate ⟨5, 0, 0⟩ ⟨1, 1, 1⟩ := by
  obtain ⟨u', hu⟩ := diskUniverse_defined 5 k m
  have e := C41_force (diskUniverse_ok 5) rfl rfl rfl (diskUniverse_velocity 5) hu 1 (by decide)
    (diskUniverse_orbiting 5 1 (by decide)) (by rw [diskUniverse_mass]; norm_num)
    (diskUniverse_apart (by norm_num)) (by simp [diskUniverse])
  have r : (⟨5, 0, 0⟩ : Axes ℝ)
      = ((diskUniverse 5).particles 1).inertialPosition - ((diskUniverse 5).particles 0).inertialPosition := by
    ext <;> simp [diskUniverse, blank]
  have v : (⟨1, 1, 1⟩ : Axes ℝ)
      = ((diskUniverse 5).particles 1).inertialVelocity - ((diskUniverse 5).particles 0).inertialVelocity := by
    ext <;> simp [diskUniverse, blank]
  rw [r, v]
  exact ⟨u', hu, _, e⟩

/-- Inside the inner edge of the disk there is no gas: no acceleration. -/
theorem C41_inside {k : Consts ℝ} {m : Models ℝ} {eps2 time : ℝ} {evolution dL : Bool}
    {ignore : Ignore} {u u' : Universe ℝ n} {h : Fin n} {d : DiskProperties ℝ}
    (hok : DiskHostOk u) (hh : u.hosts.disk = some h) (cd : u.consider.disk = true)
    (hd : (u.particles h).disk.effect = .central d)
    (hv : (u.particles u.hosts.mostMassive).heliocentricVelocity = 0)
    (hu : calculateAdditionalEffects k m eps2 time evolution dL true ignore (inertialToHeliocentric u)
      = some u') (i : Fin n) (hi : i ≠ h) (ho : (u.particles i).disk.effect.isOrbiting = true)
    (hm : (u.particles i).mass ≠ 0)
    (hsep : (u.particles i).inertialPosition ≠ (u.particles h).inertialPosition)
    (hmu : (u.particles i).massG + (u.particles h).massG ≠ 0)
    (hin : Real.sqrt ((u.particles i).inertialPosition - (u.particles h).inertialPosition).norm2
      ≤ d.innerEdgeDistance) :
    (u'.particles i).disk.acceleration = 0 := by
  rw [C41_force hok hh cd hd hv hu i hi ho hm hsep hmu]
  unfold migrationRate gasDensity
  rw [if_neg (not_lt.2 hin)]
  unfold dampingAcceleration
  simp

example (k : Consts ℝ) (m : Models ℝ) : ∃ u', calculateAdditionalEffects k m 0 0 false true true .none
      (inertialToHeliocentric (diskUniverse (1 / 2))) = some u'
    ∧ (u'.particles 1).disk.acceleration = 0 := by
  obtain ⟨u', hu⟩ := diskUniverse_defined (1 / 2) k m
  refine ⟨u', hu, C41_inside (diskUniverse_ok (1 / 2)) rfl rfl rfl (diskUniverse_velocity _) hu 1 (by decide)
    (diskUniverse_orbiting _ 1 (by decide)) (by rw [diskUniverse_mass]; norm_num)
    (diskUniverse_apart (by norm_num)) (by simp [diskUniverse]) ?_⟩
  rw [Real.sqrt_le_one]
  simp [diskUniverse, blank, Axes.norm2, Axes.dot]
  norm_num

/-- The disk never gives energy to a companion in the frame of its host. -/
theorem C41_dissipates {k : Consts ℝ} {m : Models ℝ} {eps2 time : ℝ} {evolution dL : Bool}
    {ignore : Ignore} {u u' : Universe ℝ n} {h : Fin n} {d : DiskProperties ℝ}
    (hok : DiskHostOk u) (hh : u.hosts.disk = some h) (cd : u.consider.disk = true)
    (hd : (u.particles h).disk.effect = .central d)
    (hv : (u.particles u.hosts.mostMassive).heliocentricVelocity = 0)
    (hu : calculateAdditionalEffects k m eps2 time evolution dL true ignore (inertialToHeliocentric u)
      = some u') (i : Fin n) (hi : i ≠ h) (ho : (u.particles i).disk.effect.isOrbiting = true)
    (hm : 0 < (u.particles i).mass) (hmh : 0 < (u.particles h).mass)
    (hsep : (u.particles i).inertialPosition ≠ (u.particles h).inertialPosition)
    (hmu : (u.particles i).massG + (u.particles h).massG ≠ 0)
    (k1 : 0 ≤ k.boltzmann) (k2 : 0 ≤ k.massHydrogen) (d1 : 0 ≤ d.alpha) (d2 : 0 ≤ d.meanMolecularWeight)
    (d3 : 0 ≤ d.surfaceDensityNormalization) :
    (u'.particles i).disk.acceleration.dot
      ((u.particles i).inertialVelocity - (u.particles h).inertialVelocity) ≤ 0 := by
  rw [C41_force hok hh cd hd hv hu i hi ho hm.ne' hsep hmu]
  set r := (u.particles i).inertialPosition - (u.particles h).inertialPosition with hr
  set v := (u.particles i).inertialVelocity - (u.particles h).inertialVelocity with hvv
  set distance := Real.sqrt r.norm2 with hdist
  have dpos : 0 < distance := by
    refine Real.sqrt_pos.2 (lt_of_le_of_ne (Axes.dot_self_nonneg _) fun e => hsep ?_)
    exact sub_eq_zero.1 (Axes.dot_self_eq_zero e.symm)
  generalize (1 / (2 / distance - v.norm2 / ((u.particles i).massG + (u.particles h).massG))) = a
  have visc : 0 ≤ gasViscosity k d (u.particles h).mass (u.particles h).massG distance := by
    unfold gasViscosity
    positivity
  have dens : 0 ≤ gasDensity d time distance := by
    unfold gasDensity
    split
    · rename_i hin
      have : Real.sqrt (d.innerEdgeDistance / distance) ≤ 1 := by
        rw [Real.sqrt_le_one]
        exact (div_le_one dpos).2 hin.le
      have h1 : 0 ≤ 1 - Real.sqrt (d.innerEdgeDistance / distance) := by linarith
      positivity
    · exact le_rfl
  have rate : 0 ≤ migrationRate k d time (u.particles h).mass (u.particles h).massG (u.particles i).mass
      distance a := by
    unfold migrationRate
    have : 0 ≤ min 1 (2 * gasDensity d time distance * a ^ 2 / (u.particles i).mass) :=
      le_min zero_le_one (by positivity)
    positivity
  generalize migrationRate k d time (u.particles h).mass (u.particles h).massG (u.particles i).mass
      distance a = g at rate
  have n2 : 0 ≤ r.norm2 := Axes.dot_self_nonneg _
  have v2 : 0 ≤ v.norm2 := Axes.dot_self_nonneg _
  have e : (dampingAcceleration g r v).dot v
      = -(g * v.norm2) - 20 * g * (r.dot v) ^ 2 / r.norm2 - 20 * g * v.z ^ 2 := by
    unfold dampingAcceleration
    rw [show v.norm2 = v.x * v.x + v.y * v.y + v.z * v.z by simp [Axes.norm2, Axes.dot]]
    generalize hq : r.norm2 = q
    simp only [Axes.dot, Axes.sub_x, Axes.sub_y, Axes.sub_z, Axes.neg_x, Axes.neg_y, Axes.neg_z, Axes.smul_x,
      Axes.smul_y, Axes.smul_z]
    ring
  rw [e]
  have h1 : 0 ≤ g * v.norm2 := mul_nonneg rate v2
  have h2 : 0 ≤ 20 * g * (r.dot v) ^ 2 / r.norm2 := by positivity
  have h3 : 0 ≤ 20 * g * v.z ^ 2 := by positivity
  linarith

example (k : Consts ℝ) (k1 : 0 ≤ k.boltzmann) (k2 : 0 ≤ k.massHydrogen) (m : Models ℝ) :
    ∃ u', calculateAdditionalEffects k m 0 0 false true true .none
      (inertialToHeliocentric (diskUniverse 5)) = some u'
    ∧ (u'.particles 1).disk.acceleration.dot ⟨1, 1, 1⟩ ≤ 0 := by
  obtain ⟨u', hu⟩ := diskUniverse_defined 5 k m
  have e := C41_dissipates (diskUniverse_ok 5) rfl rfl rfl (diskUniverse_velocity 5) hu 1 (by decide)
    (diskUniverse_orbiting 5 1 (by decide)) (by rw [diskUniverse_mass]; norm_num)
    (by rw [diskUniverse_mass]; norm_num)
    (diskUniverse_apart (by norm_num)) (by simp [diskUniverse]) k1 k2 zero_le_one zero_le_one zero_le_one
  refine ⟨u', hu, le_trans (le_of_eq ?_) e⟩
  congr 1
  ext <;> simp [diskUniverse, blank]

/-! ## The wind -/

/-- The torque by the wind, whatever torque is still stored from the last evaluation. -/
theorem wind_torque {k : Consts ℝ} {m : Models ℝ} {eps2 time : ℝ} {evolution acc : Bool}
    {ignore : Ignore} {u u' : Universe ℝ n} (cw : u.consider.wind = true)
    (hu : calculateAdditionalEffects k m eps2 time evolution true acc ignore u = some u') (i : Fin n)
    (hi : (u.particles i).wind.interaction = true) {saturation kFactor : ℝ} (hs : 0 ≤ saturation)
    (hw1 : (u.particles i).wind.kFactor = kFactor) (hw2 : (u.particles i).wind.rotationSaturation = saturation)
    (hw3 : (u.particles i).wind.rotationSaturation2 = saturation ^ 2) :
    let w := (u'.particles i).spin
    (u'.particles i).wind.dAngularMomentumDt = -((kFactor * min w.norm2 (saturation ^ 2)
      * Real.sqrt ((u'.particles i).radius / k.rSun / (u.particles i).mass)) • w) := by
  intro w
  obtain ⟨q, q1, q2, q3, q4, q5, q6, q7, q8, -, q9, -⟩ := wind_evaluation cw hu i
  rw [q9]
  unfold windFactor
  rw [q5, if_pos hi]
  dsimp only
  have hk : q.wind.kFactor = kFactor := by rw [q6, hw1]
  have hsat : q.wind.rotationSaturation = saturation := by rw [q7, hw2]
  have hsat2 : q.wind.rotationSaturation2 = saturation ^ 2 := by rw [q8, hw3]
  rw [hk, hsat, hsat2, q3, q4, q2, q1]
  have n2 : 0 ≤ w.norm2 := Axes.dot_self_nonneg _
  simp only [leb_real, sqrt_real, lit_real]
  push_cast
  by_cases hf : saturation ≤ Real.sqrt w.norm2
  · have : saturation ^ 2 ≤ w.norm2 := by
      rw [← Real.sq_sqrt n2]
      exact pow_le_pow_left₀ hs hf 2
    rw [min_eq_right this]
    have hf' : (saturation ≤ √(u'.particles i).spin.norm2) := hf
    simp only [hf', decide_true, if_true]
    rw [mul_one]
    ext <;> simp <;> ring
  · have : w.norm2 ≤ saturation ^ 2 := by
      rw [← Real.sq_sqrt n2]
      exact pow_le_pow_left₀ (Real.sqrt_nonneg _) (not_le.1 hf).le 2
    rw [min_eq_left this]
    have hf' : ¬ (saturation ≤ √(u'.particles i).spin.norm2) := hf
    simp only [hf', decide_false, Bool.false_eq_true, if_false]
    rw [mul_one]
    ext <;> simp <;> ring

/-- The torque by the wind: opposite to the spin, with the cube of the rate below saturation and linear
above. -/
theorem C41_wind {k : Consts ℝ} {m : Models ℝ} {eps2 time : ℝ} {evolution acc : Bool}
    {ignore : Ignore} {u u' : Universe ℝ n} (cw : u.consider.wind = true)
    (hu : calculateAdditionalEffects k m eps2 time evolution true acc ignore u = some u') (i : Fin n)
    (hi : (u.particles i).wind.interaction = true) {saturation kFactor : ℝ} (hs : 0 ≤ saturation)
    (hw : (u.particles i).wind = Wind.new true kFactor saturation) :
    let w := (u'.particles i).spin
    (u'.particles i).wind.dAngularMomentumDt = -((kFactor * min w.norm2 (saturation ^ 2)
      * Real.sqrt ((u'.particles i).radius / k.rSun / (u.particles i).mass)) • w) :=
  wind_torque cw hu i hi hs (by rw [hw]; rfl) (by rw [hw]; rfl) (by rw [hw]; simp [Wind.new])

/-- The wind never spins a body up. -/
theorem C41_wind_brakes {k : Consts ℝ} {m : Models ℝ} {eps2 time : ℝ} {evolution acc : Bool}
    {ignore : Ignore} {u u' : Universe ℝ n} (cw : u.consider.wind = true)
    (hu : calculateAdditionalEffects k m eps2 time evolution true acc ignore u = some u') (i : Fin n)
    (hi : (u.particles i).wind.interaction = true) {saturation kFactor : ℝ} (hs : 0 ≤ saturation)
    (hk : 0 ≤ kFactor) (hw : (u.particles i).wind = Wind.new true kFactor saturation) :
    (u'.particles i).spin.dot (u'.particles i).wind.dAngularMomentumDt ≤ 0
      ∧ (u'.particles i).spin.cross (u'.particles i).wind.dAngularMomentumDt = 0 := by
  rw [C41_wind cw hu i hi hs hw]
  set w := (u'.particles i).spin
  have n2 : 0 ≤ w.norm2 := Axes.dot_self_nonneg _
  have c : 0 ≤ kFactor * min w.norm2 (saturation ^ 2)
      * Real.sqrt ((u'.particles i).radius / k.rSun / (u.particles i).mass) := by
    have : 0 ≤ min w.norm2 (saturation ^ 2) := le_min n2 (sq_nonneg _)
    positivity
  generalize kFactor * min w.norm2 (saturation ^ 2)
      * Real.sqrt ((u'.particles i).radius / k.rSun / (u.particles i).mass) = g at c
  refine ⟨?_, ?_⟩
  · have : w.dot (-(g • w)) = -(g * w.norm2) := by
      simp [Axes.norm2, Axes.dot]; ring
    rw [this]
    have := mul_nonneg c n2
    linarith
  · ext <;> simp [Axes.cross] <;> ring

example (k : Consts ℝ) (m : Models ℝ) : ∃ u', calculateAdditionalEffects k m 0 0 false true true .none
      (inertialToHeliocentric (diskUniverse 5)) = some u'
    ∧ (u'.particles 0).spin.dot (u'.particles 0).wind.dAngularMomentumDt ≤ 0 := by
  obtain ⟨u', hu⟩ := diskUniverse_defined 5 k m
  exact ⟨u', hu, (C41_wind_brakes rfl hu 0 rfl (saturation := 2) (kFactor := 1) (by norm_num) (by norm_num)
    rfl).1⟩

/-- The torque changes continuously with the spin, also at saturation. -/
theorem C41_wind_continuous (k : Consts ℝ) (p : Particle ℝ) {saturation kFactor : ℝ} (hs : 0 ≤ saturation)
    (hw : p.wind = Wind.new true kFactor saturation) (w : ℝ → Axes ℝ) (hx : Continuous fun t => (w t).x)
    (hy : Continuous fun t => (w t).y) (hz : Continuous fun t => (w t).z) :
    let torque := fun t =>
      (windFactor k { p with spin := w t, normSpin2 := (w t).norm2 }).wind.dAngularMomentumDt
    Continuous (fun t => (torque t).x) ∧ Continuous (fun t => (torque t).y) ∧ Continuous fun t => (torque t).z := by
  intro torque
  have e : ∀ t, torque t = -((kFactor * min (w t).norm2 (saturation ^ 2)
      * Real.sqrt (p.radius / k.rSun / p.mass)) • w t) := by
    intro t
    change (windFactor k { p with spin := w t, normSpin2 := (w t).norm2 }).wind.dAngularMomentumDt = _
    unfold windFactor
    dsimp only
    rw [hw]
    have n2 : 0 ≤ (w t).norm2 := Axes.dot_self_nonneg _
    simp only [Wind.new, if_true, leb_real, sqrt_real, lit_real, ipow_real]
    push_cast
    by_cases hf : saturation ≤ Real.sqrt (w t).norm2
    · have : saturation ^ 2 ≤ (w t).norm2 := by
        rw [← Real.sq_sqrt n2]
        exact pow_le_pow_left₀ hs hf 2
      rw [min_eq_right this]
      simp only [hf, decide_true, if_true]
      rw [mul_one]
      ext <;> simp <;> ring
    · have : (w t).norm2 ≤ saturation ^ 2 := by
        rw [← Real.sq_sqrt n2]
        exact pow_le_pow_left₀ (Real.sqrt_nonneg _) (not_le.1 hf).le 2
      rw [min_eq_left this]
      simp only [hf, decide_false, Bool.false_eq_true, if_false]
      rw [mul_one]
      ext <;> simp <;> ring
  have n2 : Continuous fun t => (w t).norm2 := by
    have : (fun t => (w t).norm2) = fun t => (w t).x * (w t).x + (w t).y * (w t).y + (w t).z * (w t).z := by
      funext t
      simp [Axes.norm2, Axes.dot]
    rw [this]
    exact ((hx.mul hx).add (hy.mul hy)).add (hz.mul hz)
  have g : Continuous fun t => kFactor * min (w t).norm2 (saturation ^ 2)
      * Real.sqrt (p.radius / k.rSun / p.mass) :=
    (continuous_const.mul (n2.min continuous_const)).mul continuous_const
  refine ⟨?_, ?_, ?_⟩
  · simp only [e]
    exact (g.mul hx).neg
  · simp only [e]
    exact (g.mul hy).neg
  · simp only [e]
    exact (g.mul hz).neg

example (k : Consts ℝ) : Continuous fun t => ((windFactor k
    { blank ℝ with wind := Wind.new true 1 2, spin := ⟨0, 0, t⟩, normSpin2 := (⟨0, 0, t⟩ : Axes ℝ).norm2
      }).wind.dAngularMomentumDt).z :=
  (C41_wind_continuous k { blank ℝ with wind := Wind.new true 1 2 } (saturation := 2) (kFactor := 1)
    (by norm_num) rfl (fun t => ⟨0, 0, t⟩) continuous_const continuous_const continuous_id).2.2

end Posidonius.Univ
