import Verif.Lemmas.FlatOrbit
import Verif.Props.Flattening
import Verif.Props.TidalOrbit

/-! # C119: what the flattening of rotating bodies does to their orbit -/

namespace Posidonius.Univ
open Finset Order
open Gravity (Ignore)
open WHFast (VecDeriv)

variable {n : Nat}

/-- Host `h` and companion `i`, both flattened by a rotation that is up to date, run along a Kepler ellipse while the effects are
evaluated. -/
structure FlattenedOrbit (k : Consts ℝ) (m : Models ℝ) (eps2 : ℝ) (evolution : Bool) (ignore : Ignore)
    (u u' : ℝ → Universe ℝ n) (h i : Fin n) (mu a e : ℝ) (p q : Axes ℝ) (M mi Rh Ri : ℝ) (love : Fin n → ℝ)
    (wh wi : Axes ℝ) : Prop where
  other : i ≠ h
  hosts : ∀ t, HostsOk (u t)
  host : ∀ t, (u t).hosts.flattening = some h
  considered : ∀ t, (u t).consider.flattening = true
  oblate : ∀ t, AllOblate h love (u t).particles
  masses : ∀ t j, ((u t).particles j).mass ≠ 0
  static : ∀ t, (evolution && (u t).consider.evolution) = false
  spins : ∀ t j, ((u t).particles j).momentOfInertia • ((u t).particles j).spin = ((u t).particles j).angularMomentum
  rotating : ∀ t j, ((u t).particles j).spin ≠ 0
  evaluated : ∀ t, calculateAdditionalEffects k m eps2 t evolution true true ignore (inertialToHeliocentric (u t)) = some (u' t)
  hostMass : ∀ t, ((u t).particles h).mass = M
  companionMass : ∀ t, ((u t).particles i).mass = mi
  hostRadius : ∀ t, ((u t).particles h).radius = Rh
  companionRadius : ∀ t, ((u t).particles i).radius = Ri
  hostSpin : ∀ t, ((u t).particles h).spin = wh
  companionSpin : ∀ t, ((u t).particles i).spin = wi
  orbit : Ellipse mu a e p q (fun t => ((u t).particles i).inertialPosition - ((u t).particles h).inertialPosition)
    (fun t => ((u t).particles i).inertialVelocity - ((u t).particles h).inertialVelocity)

/-- A body on an ellipse is never at its focus. -/
theorem Ellipse.apart {mu a e : ℝ} {p q : Axes ℝ} {x v : ℝ → Axes ℝ} (o : Ellipse mu a e p q x v) (t : ℝ) : x t ≠ 0 := by
  obtain ⟨f, L, H, hl, hh, -, -, -, hy, -, -, hx, hv, hd⟩ := o.frame
  have hyt := hy t
  intro h0
  have h1 := plane_dot o.pp o.qq o.pq (L / (1 + e * Real.cos (f t)) * Real.cos (f t))
    (L / (1 + e * Real.cos (f t)) * Real.sin (f t)) (L / (1 + e * Real.cos (f t)) * Real.cos (f t))
    (L / (1 + e * Real.cos (f t)) * Real.sin (f t))
  rw [← hx t, h0, hd, Axes.zero_dot] at h1
  have : 0 < (L / (1 + e * Real.cos (f t))) ^ 2 := by positivity
  linarith

section
variable {k : Consts ℝ} {m : Models ℝ} {eps2 : ℝ} {evolution : Bool} {ignore : Ignore}
  {u u' : ℝ → Universe ℝ n} {h i : Fin n} {mu a e : ℝ} {p q : Axes ℝ} {M mi Rh Ri : ℝ} {love : Fin n → ℝ} {wh wi : Axes ℝ}

/-- The force along the orbit. -/
theorem FlattenedOrbit.force (o : FlattenedOrbit k m eps2 evolution ignore u u' h i mu a e p q M mi Rh Ri love wh wi) (t : ℝ) :
    mi • ((u' t).particles i).flattening.acceleration
      = flatForce (mi * love h * Rh ^ 5) wh (((u t).particles i).inertialPosition - ((u t).particles h).inertialPosition)
        + flatForce (M * love i * Ri ^ 5) wi (((u t).particles i).inertialPosition - ((u t).particles h).inertialPosition) := by
  have apart := o.orbit.apart t
  have npos : 0 < (((u t).particles i).inertialPosition - ((u t).particles h).inertialPosition).norm2 :=
    lt_of_le_of_ne (Axes.dot_self_nonneg _) fun e0 => apart (Axes.dot_self_eq_zero e0.symm)
  have key : ∀ d : Axes ℝ, (mi • ((u' t).particles i).flattening.acceleration).dot d
      = (flatForce (mi * love h * Rh ^ 5) wh (((u t).particles i).inertialPosition - ((u t).particles h).inertialPosition)
        + flatForce (M * love i * Ri ^ 5) wi (((u t).particles i).inertialPosition - ((u t).particles h).inertialPosition)).dot d := by
    intro d
    have h1 := C63_partial (o.hosts t) (o.host t) (o.considered t) (o.oblate t) (o.masses t) (o.static t) (o.spins t)
      (o.rotating t) (o.evaluated t) i o.other (sub_ne_zero.1 apart) d
    have h2 := (quadrupole_deriv (((u t).particles i).mass * love h * ((u t).particles h).radius ^ 5) ((u t).particles h).spin _ d npos).fun_add
      (quadrupole_deriv (((u t).particles h).mass * love i * ((u t).particles i).radius ^ 5) ((u t).particles i).spin _ d npos)
    have h3 := h1.unique h2
    rw [o.hostMass, o.companionMass, o.hostRadius, o.companionRadius, o.hostSpin, o.companionSpin] at h3
    rw [h3, Axes.add_dot]
    unfold flatForce
    simp only [Axes.smul_dot, Axes.sub_dot, show ∀ y : Axes ℝ, y.norm2 = y.dot y from fun _ => rfl, Axes.dot_comm d]
    ring
  have hx := key ⟨1, 0, 0⟩
  have hy := key ⟨0, 1, 0⟩
  have hz := key ⟨0, 0, 1⟩
  simp only [Axes.dot, mul_one, mul_zero, add_zero, zero_add] at hx hy hz
  exact Axes.ext hx hy hz

/-- The bodies push each other with opposite forces if there are no others. -/
theorem FlattenedOrbit.relative (o : FlattenedOrbit k m eps2 evolution ignore u u' h i mu a e p q M mi Rh Ri love wh wi)
    (two : ∀ j, j = h ∨ j = i) (t : ℝ) :
    ((u' t).particles i).flattening.acceleration - ((u' t).particles h).flattening.acceleration
      = (1 / mi + 1 / M) • (mi • ((u' t).particles i).flattening.acceleration) := by
  have hM : M ≠ 0 := by rw [← o.hostMass 0]; exact o.masses 0 h
  have hm : mi ≠ 0 := by rw [← o.companionMass 0]; exact o.masses 0 i
  have hs := C38_momentum (o.hosts t) (o.host t) (o.considered t) (o.oblate t) (o.masses t) (o.evaluated t)
  have hu : (univ : Finset (Fin n)) = {h, i} := by
    ext j
    simpa using two j
  rw [hu, sum_pair o.other.symm, o.hostMass, o.companionMass] at hs
  generalize ((u' t).particles i).flattening.acceleration = x at *
  generalize ((u' t).particles h).flattening.acceleration = y at *
  have hy : y = -(mi / M) • x := by
    rw [neg_smul, eq_neg_iff_add_eq_zero, ← smul_right_inj hM, smul_add, smul_smul, mul_div_cancel₀ _ hM, hs, smul_zero]
  rw [hy, smul_smul, neg_smul, sub_neg_eq_add]
  rw [show (1 / mi + 1 / M) * mi = 1 + mi / M by field_simp, add_smul, one_smul]

/-- **C119**: the flattening does no work in a revolution: the size of the orbit stays the same. -/
theorem C119_work (o : FlattenedOrbit k m eps2 evolution ignore u u' h i mu a e p q M mi Rh Ri love wh wi) :
    Gain (fun t => (mi • ((u' t).particles i).flattening.acceleration).dot
      (((u t).particles i).inertialVelocity - ((u t).particles h).inertialVelocity)) (2 * Real.pi / orbitRate mu a) 0 := by
  refine ((flat_work o.orbit (mi * love h * Rh ^ 5) wh).add (flat_work o.orbit (M * love i * Ri ^ 5) wi)).congr
    (fun t => ?_) (by ring)
  rw [o.force, Axes.add_dot]

/-- **C119**: the angular momentum that the orbit gains in a revolution in any direction `d`. -/
theorem C119_torque (o : FlattenedOrbit k m eps2 evolution ignore u u' h i mu a e p q M mi Rh Ri love wh wi) (d : Axes ℝ) :
    Gain (fun t => ((((u t).particles i).inertialPosition - ((u t).particles h).inertialPosition).cross
        (mi • ((u' t).particles i).flattening.acceleration)).dot d) (2 * Real.pi / orbitRate mu a)
      (Real.pi / (Real.sqrt mu * Real.sqrt (a * (1 - e ^ 2)) ^ 3)
        * ((p.cross q).cross ((mi * love h * Rh ^ 5 * wh.dot (p.cross q)) • wh + (M * love i * Ri ^ 5 * wi.dot (p.cross q)) • wi)).dot d) := by
  refine ((flat_torque o.orbit (mi * love h * Rh ^ 5) wh d).add (flat_torque o.orbit (M * love i * Ri ^ 5) wi d)).congr
    (fun t => ?_) ?_
  · rw [o.force, Axes.cross_add, Axes.add_dot]
  · rw [Axes.cross_add, Axes.cross_smul, Axes.cross_smul, Axes.add_dot, Axes.smul_dot, Axes.smul_dot]
    ring

/-- **C119**: it does not change the eccentricity in a revolution ... -/
theorem C119_eccentricity (o : FlattenedOrbit k m eps2 evolution ignore u u' h i mu a e p q M mi Rh Ri love wh wi)
    (two : ∀ j, j = h ∨ j = i) :
    Gain (fun t => (eccentricityRate mu (((u t).particles i).inertialPosition - ((u t).particles h).inertialPosition)
        (((u t).particles i).inertialVelocity - ((u t).particles h).inertialVelocity)
        (((u' t).particles i).flattening.acceleration - ((u' t).particles h).flattening.acceleration)).dot p)
      (2 * Real.pi / orbitRate mu a) 0 := by
  refine (((flat_eccentricity o.orbit (mi * love h * Rh ^ 5) wh).add
    (flat_eccentricity o.orbit (M * love i * Ri ^ 5) wi)).const_mul (1 / mi + 1 / M)).congr (fun t => ?_) (by ring)
  rw [o.relative two, o.force, eccentricityRate_smul, Axes.smul_dot, eccentricityRate_add, Axes.add_dot]

/-- **C119**: ... and turns the pericentre in the plane of the orbit by 3/4 `J2 (R / p)^2 (3 cos^2 i - 1)` of a revolution for
each of the two bodies, `J2` being a third of the Love number times the ratio of centrifugal to gravitational acceleration ... -/
theorem C119_pericentre (o : FlattenedOrbit k m eps2 evolution ignore u u' h i mu a e p q M mi Rh Ri love wh wi)
    (two : ∀ j, j = h ∨ j = i) (hmu : mu = k.g * (M + mi)) {Jh Ji : ℝ}
    (hJh : Jh = love h * (wh.dot wh * Rh ^ 3 / (k.g * M)) / 3) (hJi : Ji = love i * (wi.dot wi * Ri ^ 3 / (k.g * mi)) / 3) :
    Gain (fun t => (eccentricityRate mu (((u t).particles i).inertialPosition - ((u t).particles h).inertialPosition)
        (((u t).particles i).inertialVelocity - ((u t).particles h).inertialVelocity)
        (((u' t).particles i).flattening.acceleration - ((u' t).particles h).flattening.acceleration)).dot q)
      (2 * Real.pi / orbitRate mu a)
      (e * (2 * Real.pi * (3 / 4) * (Jh * (Rh / (a * (1 - e ^ 2))) ^ 2 * (3 * wh.dot (p.cross q) ^ 2 / wh.dot wh - 1)
        + Ji * (Ri / (a * (1 - e ^ 2))) ^ 2 * (3 * wi.dot (p.cross q) ^ 2 / wi.dot wi - 1)))) := by
  refine (((flat_apsides o.orbit (mi * love h * Rh ^ 5) wh).add
    (flat_apsides o.orbit (M * love i * Ri ^ 5) wi)).const_mul (1 / mi + 1 / M)).congr (fun t => ?_) ?_
  · rw [o.relative two, o.force, eccentricityRate_smul, Axes.smul_dot, eccentricityRate_add, Axes.add_dot]
  · have hM : M ≠ 0 := by rw [← o.hostMass 0]; exact o.masses 0 h
    have hm : mi ≠ 0 := by rw [← o.companionMass 0]; exact o.masses 0 i
    have hL : a * (1 - e ^ 2) ≠ 0 := (mul_pos o.orbit.size (by nlinarith [o.orbit.round, o.orbit.closed])).ne'
    have hmu0 := o.orbit.attracts
    have hg : k.g ≠ 0 := fun h0 => by rw [hmu, h0, zero_mul] at hmu0; exact lt_irrefl _ hmu0
    have hs : M + mi ≠ 0 := fun h0 => by rw [hmu, h0, mul_zero] at hmu0; exact lt_irrefl _ hmu0
    have n1 : wh.dot wh ≠ 0 := by rw [← o.hostSpin 0]; exact fun e0 => o.rotating 0 h (Axes.dot_self_eq_zero e0)
    have n2 : wi.dot wi ≠ 0 := by rw [← o.companionSpin 0]; exact fun e0 => o.rotating 0 i (Axes.dot_self_eq_zero e0)
    rw [hJh, hJi, hmu]
    generalize a * (1 - e ^ 2) = L at *
    field_simp
    ring

/-- **C119**: ... and along with the plane. -/
theorem C119_tilt (o : FlattenedOrbit k m eps2 evolution ignore u u' h i mu a e p q M mi Rh Ri love wh wi)
    (two : ∀ j, j = h ∨ j = i) :
    Gain (fun t => (eccentricityRate mu (((u t).particles i).inertialPosition - ((u t).particles h).inertialPosition)
        (((u t).particles i).inertialVelocity - ((u t).particles h).inertialVelocity)
        (((u' t).particles i).flattening.acceleration - ((u' t).particles h).flattening.acceleration)).dot (p.cross q))
      (2 * Real.pi / orbitRate mu a)
      (e * (Real.pi * (1 / mi + 1 / M) / (mu * (a * (1 - e ^ 2)) ^ 2) * (mi * love h * Rh ^ 5 * wh.dot (p.cross q) * wh.dot q
        + M * love i * Ri ^ 5 * wi.dot (p.cross q) * wi.dot q))) := by
  refine (((flat_tilt o.orbit (mi * love h * Rh ^ 5) wh).add
    (flat_tilt o.orbit (M * love i * Ri ^ 5) wi)).const_mul (1 / mi + 1 / M)).congr (fun t => ?_) ?_
  · rw [o.relative two, o.force, eccentricityRate_smul, Axes.smul_dot, eccentricityRate_add, Axes.add_dot]
  · ring

/-- **C119**: if the companion rotates around the normal of the orbit, the host turns the normal around its own axis by
`-3/2 J2 (R / p)^2 cos i` of a revolution: the node regresses for a prograde orbit and advances for a retrograde one. -/
theorem C119_node (o : FlattenedOrbit k m eps2 evolution ignore u u' h i mu a e p q M mi Rh Ri love wh wi)
    (two : ∀ j, j = h ∨ j = i) (hmu : mu = k.g * (M + mi)) (upright : (p.cross q).cross wi = 0) {Jh : ℝ}
    (hJh : Jh = love h * (wh.dot wh * Rh ^ 3 / (k.g * M)) / 3) (d : Axes ℝ) :
    Gain (fun t => (((((u t).particles i).inertialPosition - ((u t).particles h).inertialPosition).cross
        (((u' t).particles i).flattening.acceleration - ((u' t).particles h).flattening.acceleration)).dot d))
      (2 * Real.pi / orbitRate mu a)
      (Real.sqrt (mu * (a * (1 - e ^ 2))) * (-(2 * Real.pi * (3 / 2) * (Jh * (Rh / (a * (1 - e ^ 2))) ^ 2)
        * (wh.dot (p.cross q) / Real.sqrt (wh.dot wh))) * (((1 / Real.sqrt (wh.dot wh)) • wh).cross (p.cross q)).dot d)) := by
  refine ((C119_torque o d).const_mul (1 / mi + 1 / M)).congr (fun t => ?_) ?_
  · rw [o.relative two, Axes.cross_smul, Axes.smul_dot]
  · have hM : M ≠ 0 := by rw [← o.hostMass 0]; exact o.masses 0 h
    have hm : mi ≠ 0 := by rw [← o.companionMass 0]; exact o.masses 0 i
    have hL : 0 < a * (1 - e ^ 2) := mul_pos o.orbit.size (by nlinarith [o.orbit.round, o.orbit.closed])
    have hmu0 := o.orbit.attracts
    have hg : k.g ≠ 0 := fun h0 => by rw [hmu, h0, zero_mul] at hmu0; exact lt_irrefl _ hmu0
    have hs : M + mi ≠ 0 := fun h0 => by rw [hmu, h0, mul_zero] at hmu0; exact lt_irrefl _ hmu0
    have n1 : wh.dot wh ≠ 0 := by rw [← o.hostSpin 0]; exact fun e0 => o.rotating 0 h (Axes.dot_self_eq_zero e0)
    have n2 : 0 < wh.dot wh := lt_of_le_of_ne (Axes.dot_self_nonneg _) n1.symm
    have e1 : (wh.cross (p.cross q)).dot d = -((p.cross q).cross wh).dot d := by simp only [Axes.dot, Axes.cross]; ring
    rw [Axes.cross_add, Axes.cross_smul, Axes.cross_smul, upright, smul_zero, add_zero, Axes.smul_dot, Axes.smul_cross,
      Axes.smul_dot, e1, Real.sqrt_mul hmu0.le, hJh]
    have q1 : Real.sqrt (wh.dot wh) ^ 2 = wh.dot wh := Real.sq_sqrt n2.le
    have q2 : Real.sqrt (a * (1 - e ^ 2)) ^ 2 = a * (1 - e ^ 2) := Real.sq_sqrt hL.le
    have q3 : Real.sqrt mu ^ 2 = k.g * (M + mi) := by rw [Real.sq_sqrt hmu0.le, hmu]
    have r1 := Real.sqrt_pos.2 n2
    have r2 := Real.sqrt_pos.2 hL
    have r3 := Real.sqrt_pos.2 hmu0
    generalize ((p.cross q).cross wh).dot d = X
    generalize wh.dot (p.cross q) = Y
    obtain ⟨l, hl⟩ : ∃ l, Real.sqrt (a * (1 - e ^ 2)) = l := ⟨_, rfl⟩
    rw [hl] at q2 r2 ⊢
    rw [← q2]
    generalize Real.sqrt mu = s at *
    rw [← q1]
    have q4 : Real.sqrt (Real.sqrt (wh.dot wh) ^ 2) = Real.sqrt (wh.dot wh) := by rw [q1]
    rw [q4]
    generalize Real.sqrt (wh.dot wh) = z at *
    field_simp
    linear_combination (love h * Rh ^ 5 * Y * X) * q3

end

/-! ## Example -/

/-- An oblate star with an inclined axis and an oblate planet on an ellipse of the eccentricity 3/5; `E` is the eccentric
anomaly. -/
noncomputable def flatUniverse (E : ℝ) : Universe ℝ 2 :=
  { oblateUniverse with
    particles := fun i => if i = 0 then
        { blank ℝ with mass := 1, radius := 1, momentOfInertia := 1, spin := ⟨1, 0, 1⟩,
                       angularMomentum := ⟨1, 0, 1⟩,
                       flattening := { (blank ℝ).flattening with effect := .central (.oblateSpheroid 1) } }
      else
        { blank ℝ with id := 1, mass := 1, radius := 1, momentOfInertia := 1, spin := ⟨0, 0, 1⟩,
                       angularMomentum := ⟨0, 0, 1⟩,
                       inertialPosition := (Real.cos E - 3 / 5) • ⟨1, 0, 0⟩ + (Real.sqrt (1 - (3 / 5) ^ 2) * Real.sin E) • ⟨0, 1, 0⟩
                       inertialVelocity := (-Real.sin E * (1 / (1 - 3 / 5 * Real.cos E))) • ⟨1, 0, 0⟩
                         + (Real.sqrt (1 - (3 / 5) ^ 2) * (Real.cos E * (1 / (1 - 3 / 5 * Real.cos E)))) • ⟨0, 1, 0⟩
                       flattening := { (blank ℝ).flattening with effect := .orbiting (.oblateSpheroid 1) } } }

theorem flatUniverse_defined (k : Consts ℝ) (m : Models ℝ) (E t : ℝ) :
    ∃ u', calculateAdditionalEffects k m 0 t false true true .none (inertialToHeliocentric (flatUniverse E)) = some u' := by
  have hh : HasHosts (inertialToHeliocentric (flatUniverse E)) := by
    constructor <;> simp [inertialToHeliocentric, flatUniverse, oblateUniverse]
  have hn := (additionalEffects_none (k := k) (m := m) (eps2 := 0) (time := t) (evolution := false)
    (dL := true) (acc := true) (ignore := .none) hh rfl).not
  refine Option.ne_none_iff_exists'.1 (hn.2 ?_)
  rintro ⟨j, hj⟩
  have hI : ((inertialToHeliocentric (flatUniverse E)).particles j).momentOfInertia = 1 := by
    by_cases hi : j = 0 <;>
      simp [inertialToHeliocentric, flatUniverse, oblateUniverse, mapHost, mapOthers, hi, toHeliocentric, zeroHeliocentric]
  rw [hI] at hj
  simp at hj

theorem flatUniverse_orbit (k : Consts ℝ) (m : Models ℝ) : ∃ (E : ℝ → ℝ) (u' : ℝ → Universe ℝ 2),
    FlattenedOrbit k m 0 false .none (fun t => flatUniverse (E t)) u' 0 1 1 1 (3 / 5) ⟨1, 0, 0⟩ ⟨0, 1, 0⟩ 1 1 1 1 (fun _ => 1)
      ⟨1, 0, 1⟩ ⟨0, 0, 1⟩ := by
  obtain ⟨E, hE⟩ := anomaly_exists (e := 3 / 5) (by norm_num) 1
  have hd := fun t => flatUniverse_defined k m (E t) t
  choose u' hu using hd
  have rel : ∀ t, ((flatUniverse (E t)).particles 1).inertialPosition - ((flatUniverse (E t)).particles 0).inertialPosition
      = (Real.cos (E t) - 3 / 5) • (⟨1, 0, 0⟩ : Axes ℝ) + (Real.sqrt (1 - (3 / 5) ^ 2) * Real.sin (E t)) • ⟨0, 1, 0⟩ := by
    intro t
    ext <;> simp [flatUniverse, blank]
  have rel' : ∀ t, ((flatUniverse (E t)).particles 1).inertialVelocity - ((flatUniverse (E t)).particles 0).inertialVelocity
      = (-Real.sin (E t) * (1 / (1 - 3 / 5 * Real.cos (E t)))) • (⟨1, 0, 0⟩ : Axes ℝ)
        + (Real.sqrt (1 - (3 / 5) ^ 2) * (Real.cos (E t) * (1 / (1 - 3 / 5 * Real.cos (E t))))) • ⟨0, 1, 0⟩ := by
    intro t
    ext <;> simp [flatUniverse, blank]
  exact ⟨E, u', {
    other := by decide
    hosts := fun t => by constructor <;> simp [flatUniverse, oblateUniverse]
    host := fun t => rfl
    considered := fun t => rfl
    oblate := fun t => ⟨by simp [flatUniverse], fun i hi => by simp [flatUniverse, hi]⟩
    masses := fun t i => by by_cases hi : i = 0 <;> simp [flatUniverse, hi]
    static := fun t => rfl
    spins := fun t i => by by_cases hi : i = 0 <;> simp [flatUniverse, hi]
    rotating := fun t i e0 => by
      have := congrArg Axes.z e0
      by_cases hi : i = 0 <;> simp [flatUniverse, hi] at this
    evaluated := hu
    hostMass := fun t => rfl
    companionMass := fun t => rfl
    hostRadius := fun t => rfl
    companionRadius := fun t => rfl
    hostSpin := fun t => rfl
    companionSpin := fun t => rfl
    orbit := {
      attracts := one_pos
      size := one_pos
      round := by norm_num
      closed := by norm_num
      pp := by simp [Axes.dot]
      qq := by simp [Axes.dot]
      pq := by simp [Axes.dot]
      place := ⟨E, by rw [orbitRate_one]; exact hE, fun t => by rw [rel]; simp⟩
      moves := fun t => by
        have dE := anomaly_deriv (e := 3 / 5) (by norm_num) (by norm_num) one_ne_zero hE t
        have hv := WHFast.vecDeriv_combination (a := 0) (b := 0) ⟨1, 0, 0⟩ ⟨0, 1, 0⟩
          (((Real.hasDerivAt_cos (E t)).comp t dE).sub_const (3 / 5))
          (((Real.hasDerivAt_sin (E t)).comp t dE).const_mul (Real.sqrt (1 - (3 / 5) ^ 2)))
        rw [show (fun t => ((flatUniverse (E t)).particles 1).inertialPosition
          - ((flatUniverse (E t)).particles 0).inertialPosition) = _ from funext rel, rel']
        exact hv } }⟩

/-- The normal of the orbit goes backwards around the axis of the star, in the direction of its cross product with the axis,
while the pericentre advances. -/
example (k : Consts ℝ) (m : Models ℝ) (hk : k.g = 1 / 2) : ∃ (E : ℝ → ℝ) (u' : ℝ → Universe ℝ 2) (N P : ℝ),
    (∀ t, calculateAdditionalEffects k m 0 t false true true .none (inertialToHeliocentric (flatUniverse (E t)))
      = some (u' t))
    ∧ Gain (fun t => (((((flatUniverse (E t)).particles 1).inertialPosition
          - ((flatUniverse (E t)).particles 0).inertialPosition).cross
        (((u' t).particles 1).flattening.acceleration - ((u' t).particles 0).flattening.acceleration)).dot ⟨0, 1, 0⟩))
        (2 * Real.pi / orbitRate 1 1) N ∧ 0 < N
    ∧ Gain (fun t => (eccentricityRate 1 (((flatUniverse (E t)).particles 1).inertialPosition
          - ((flatUniverse (E t)).particles 0).inertialPosition)
        (((flatUniverse (E t)).particles 1).inertialVelocity - ((flatUniverse (E t)).particles 0).inertialVelocity)
        (((u' t).particles 1).flattening.acceleration - ((u' t).particles 0).flattening.acceleration)).dot ⟨0, 1, 0⟩)
        (2 * Real.pi / orbitRate 1 1) P ∧ 0 < P := by
  obtain ⟨E, u', o⟩ := flatUniverse_orbit k m
  have two : ∀ j : Fin 2, j = 0 ∨ j = 1 := by decide
  have hpi := Real.pi_pos
  refine ⟨E, u', _, _, o.evaluated, C119_node o two (by rw [hk]; norm_num) (by ext <;> simp [Axes.cross]) rfl _, ?_,
    C119_pericentre o two (by rw [hk]; norm_num) rfl rfl, ?_⟩
  · have h2 : 0 < Real.sqrt 2 := by positivity
    simp [Axes.dot, Axes.cross, hk]
    norm_num
    positivity
  · simp [Axes.dot, Axes.cross, hk]
    norm_num
    positivity

end Posidonius.Univ
