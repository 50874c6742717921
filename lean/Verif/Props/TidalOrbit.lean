import Verif.Lemmas.TidalOrbit
import Verif.Props.TidalForce
import Verif.Props.Symplectic
import Verif.Props.Anderson

/-! # C116 and C117: how tides change an orbit -/

namespace Posidonius.Univ
open Finset Order
open Gravity (Ignore)
open WHFast (VecDeriv)

variable {n : Nat}

/-- A companion `i` of the host `h` runs along a Kepler ellipse while the tides of both are evaluated: at every time `t` the
universe is `u t` before the evaluation and `u' t` after it.  Masses, radii, dissipation factors and spins do not change on
the way. -/
structure TidalOrbit (k : Consts ℝ) (m : Models ℝ) (eps2 : ℝ) (evolution : Bool) (ignore : Ignore)
    (u u' : ℝ → Universe ℝ n) (h i : Fin n) (mu a e : ℝ) (p q : Axes ℝ) (M mi Rh Ri lh li sh si : ℝ) (wh wi : Axes ℝ) :
    Prop where
  gravity : k.g ≠ 0
  other : i ≠ h
  hosts : ∀ t, HostsOk (u t)
  host : ∀ t, (u t).hosts.tides = some h
  tides : ∀ t, (u t).consider.tides = true
  ctl : ∀ t, AllCtl h (u t).particles
  masses : ∀ t j, ((u t).particles j).mass ≠ 0
  apart : ∀ t j, j ≠ h → ((u t).particles j).inertialPosition ≠ ((u t).particles h).inertialPosition
  static : ∀ t, (evolution && (u t).consider.evolution) = false
  spins : ∀ t j, ((u t).particles j).momentOfInertia • ((u t).particles j).spin = ((u t).particles j).angularMomentum
  evaluated : ∀ t, calculateAdditionalEffects k m eps2 t evolution true true ignore (inertialToHeliocentric (u t))
    = some (u' t)
  hostTide : ∀ t, ∃ a b, ((u t).particles h).tides.effect = .central (.constantTimeLag a b lh)
  companionTide : ∀ t, ∃ a b, ((u t).particles i).tides.effect = .orbiting (.constantTimeLag a b li)
  hostEquilibrium : ∀ t, ((u t).particles h).evolution ∉ dynamicalTideModels
  companionEquilibrium : ∀ t, ((u t).particles i).evolution ∉ dynamicalTideModels
  hostMass : ∀ t, ((u t).particles h).mass = M
  companionMass : ∀ t, ((u t).particles i).mass = mi
  hostRadius : ∀ t, ((u t).particles h).radius = Rh
  companionRadius : ∀ t, ((u t).particles i).radius = Ri
  hostDissipation : ∀ t, ((u t).particles h).tides.scaledDissipationFactor = sh
  companionDissipation : ∀ t, ((u t).particles i).tides.scaledDissipationFactor = si
  hostSpin : ∀ t, ((u t).particles h).spin = wh
  companionSpin : ∀ t, ((u t).particles i).spin = wi
  orbit : Ellipse mu a e p q (fun t => ((u t).particles i).inertialPosition - ((u t).particles h).inertialPosition)
    (fun t => ((u t).particles i).inertialVelocity - ((u t).particles h).inertialVelocity)

theorem eccentricityRate_smul (mu c : ℝ) (x v d : Axes ℝ) :
    eccentricityRate mu x v (c • d) = c • eccentricityRate mu x v d := by
  unfold eccentricityRate
  rw [Axes.smul_cross, Axes.cross_smul, Axes.cross_smul, ← smul_add, smul_comm]

theorem eccentricityRate_add (mu : ℝ) (x v d d' : Axes ℝ) :
    eccentricityRate mu x v (d + d') = eccentricityRate mu x v d + eccentricityRate mu x v d' := by
  unfold eccentricityRate
  rw [Axes.add_cross, Axes.cross_add, Axes.cross_add, ← smul_add]
  congr 1
  abel

theorem orbitWork_neg {mu a e A spin : ℝ} (hm : 0 < mu) (ha : 0 < a) (he0 : 0 ≤ e) (he1 : e < 1) (hA : 0 < A)
    (hs : spin < orbitRate mu a) : orbitWork mu a e A spin < 0 := by
  have hn := orbitRate_pos hm ha
  have hw2 : Real.sqrt (1 - e ^ 2) ^ 2 = 1 - e ^ 2 := Real.sq_sqrt (by nlinarith)
  have hw : 0 < Real.sqrt (1 - e ^ 2) := Real.sqrt_pos.2 (by nlinarith)
  have hw1 : Real.sqrt (1 - e ^ 2) ≤ 1 := Real.sqrt_le_one.2 (by nlinarith)
  have h2 : 0 < hut2 e := by unfold hut2; positivity
  have h12 : hut2 e ≤ hut1 e := by
    unfold hut1 hut2
    have : (0 : ℝ) ≤ e ^ 2 := by positivity
    have : (0 : ℝ) ≤ e ^ 4 := by positivity
    have : (0 : ℝ) ≤ e ^ 6 := by positivity
    have : (0 : ℝ) ≤ e ^ 8 := by positivity
    linarith
  unfold orbitWork
  generalize Real.sqrt (1 - e ^ 2) = w at *
  have hw3 : w ^ 3 ≤ 1 := pow_le_one₀ hw.le hw1
  have key : spin * (hut2 e / w ^ 12) < orbitRate mu a * (hut1 e / w ^ 15) := by
    have : spin * (hut2 e / w ^ 12) < orbitRate mu a * (hut2 e / w ^ 12) := mul_lt_mul_of_pos_right hs (by positivity)
    refine this.trans_le (mul_le_mul_of_nonneg_left ?_ hn.le)
    rw [div_le_div_iff₀ (by positivity) (by positivity)]
    have : hut2 e * w ^ 15 = hut2 e * w ^ 3 * w ^ 12 := by ring
    rw [this]
    exact mul_le_mul_of_nonneg_right (by nlinarith) (by positivity)
  have hc : 0 < 2 * Real.pi * A / a ^ 6 := by have := Real.pi_pos; positivity
  rw [neg_mul, neg_lt_zero]
  exact mul_pos hc (by linarith)

/-- **C117**: `eccentricityRate` is the rate of the vector that points to the pericentre and is as long as the eccentricity. -/
theorem C117_rate {mu t : ℝ} (hmu : mu ≠ 0) {x v : ℝ → Axes ℝ} {d : Axes ℝ} (hx : x t ≠ 0) (dx : VecDeriv x (v t) t)
    (dv : VecDeriv v (-(mu / Real.sqrt ((x t).dot (x t)) ^ 3) • x t + d) t) :
    VecDeriv (fun s => eccentricityVector mu (x s) (v s)) (eccentricityRate mu (x t) (v t) d) t := by
  have hr : 0 < (x t).dot (x t) :=
    lt_of_le_of_ne (Axes.dot_self_nonneg _) fun h0 => hx (Axes.dot_self_eq_zero h0.symm)
  have hd : 0 < Real.sqrt ((x t).dot (x t)) := Real.sqrt_pos.2 hr
  have hy : Real.sqrt ((x t).dot (x t)) ^ 2 = (x t).dot (x t) := Real.sq_sqrt hr.le
  have h1 := VecDeriv.smul' (dot_deriv dv dv) dx
  have h2 := VecDeriv.smul' (dot_deriv dx dv) dv
  have h3 := VecDeriv.smul' (((dot_deriv dx dx).sqrt hr.ne').fun_inv hd.ne') dx
  have h4 := VecDeriv.sub' (VecDeriv.const_smul' (1 / mu) (VecDeriv.sub' h1 h2)) h3
  have e1 : (fun s => eccentricityVector mu (x s) (v s))
      = fun s => (1 / mu) • ((v s).dot (v s) • x s - (x s).dot (v s) • v s)
        - (Real.sqrt ((x s).dot (x s)))⁻¹ • x s := by
    funext s
    unfold eccentricityVector
    rw [one_div (Real.sqrt _)]
    congr 2
    ext <;> simp [Axes.dot, Axes.cross] <;> ring
  rw [e1]
  convert h4 using 1
  have e2 : d.cross ((x t).cross (v t)) + (v t).cross ((x t).cross d)
      = (2 * (v t).dot d) • x t - (x t).dot d • v t - (x t).dot (v t) • d := by
    ext <;> simp [Axes.dot, Axes.cross] <;> ring
  have e3 : ∀ y : Axes ℝ, (-(mu / Real.sqrt ((x t).dot (x t)) ^ 3) • x t + d).dot y
      = -(mu / Real.sqrt ((x t).dot (x t)) ^ 3) * (x t).dot y + (v t - v t + d).dot y := by
    intro y
    rw [Axes.add_dot, Axes.smul_dot, sub_self, zero_add]
  have e4 : ∀ y : Axes ℝ, y.dot (-(mu / Real.sqrt ((x t).dot (x t)) ^ 3) • x t + d)
      = -(mu / Real.sqrt ((x t).dot (x t)) ^ 3) * (x t).dot y + y.dot d := by
    intro y
    rw [Axes.dot_add, Axes.dot_smul, Axes.dot_comm y]
  unfold eccentricityRate
  rw [e2, e3, e4, e4, sub_self, zero_add, Axes.dot_comm d (v t), Axes.dot_comm (v t) (x t)]
  have hc := hd.ne'
  generalize Real.sqrt ((x t).dot (x t)) = r at *
  rw [← hy]
  generalize (x t).dot (v t) = S
  generalize (v t).dot d = D1
  generalize (x t).dot d = D2
  generalize (v t).dot (v t) = V
  ext <;> simp only [Axes.add_x, Axes.add_y, Axes.add_z, Axes.smul_x, Axes.smul_y, Axes.smul_z,
    Axes.sub_x, Axes.sub_y, Axes.sub_z] <;> field_simp <;> ring

section
variable {k : Consts ℝ} {m : Models ℝ} {eps2 : ℝ} {evolution : Bool} {ignore : Ignore}
  {u u' : ℝ → Universe ℝ n} {h i : Fin n} {mu a e : ℝ} {p q : Axes ℝ} {M mi Rh Ri lh li sh si : ℝ} {wh wi : Axes ℝ}

/-- The force along the orbit. -/
theorem TidalOrbit.force (o : TidalOrbit k m eps2 evolution ignore u u' h i mu a e p q M mi Rh Ri lh li sh si wh wi) (t : ℝ) :
    mi • ((u' t).particles i).tides.acceleration
      = tideForce (3 * k.g * mi ^ 2 * Rh ^ 5 * lh) (9 / 2 * mi ^ 2 * Rh ^ 10 * sh) wh
          (((u t).particles i).inertialPosition - ((u t).particles h).inertialPosition)
          (((u t).particles i).inertialVelocity - ((u t).particles h).inertialVelocity)
        + tideForce (3 * k.g * M ^ 2 * Ri ^ 5 * li) (9 / 2 * M ^ 2 * Ri ^ 10 * si) wi
          (((u t).particles i).inertialPosition - ((u t).particles h).inertialPosition)
          (((u t).particles i).inertialVelocity - ((u t).particles h).inertialVelocity) := by
  obtain ⟨_, _, eh⟩ := o.hostTide t
  obtain ⟨_, _, ei⟩ := o.companionTide t
  obtain ⟨-, -, s, -, -⟩ := effects_balance (o.hosts t) (o.host t) (o.tides t) (o.ctl t) (o.masses t) (o.apart t) (o.evaluated t)
  have hsp : ∀ j, ((u' t).particles j).spin = ((u t).particles j).spin
      ∧ ((u' t).particles j).radius = ((u t).particles j).radius := by
    intro j
    obtain ⟨inertia, e1, e2, e3⟩ := s j
    refine ⟨?_, (e3 (o.static t)).2⟩
    rw [e1, ← o.spins t j, Axes.sdiv_eq_smul, smul_smul, ← (e3 (o.static t)).1, inv_mul_cancel₀ e2, one_smul]
  obtain ⟨fh, fi, w1, w2, w3⟩ := C92_force (o.hosts t) (o.host t) (o.tides t) (o.ctl t) (o.masses t) (o.apart t)
    (o.evaluated t) o.gravity o.other eh ei (o.hostEquilibrium t) (o.companionEquilibrium t)
  have hr := separation_pos (o.apart t i o.other)
  have f1 := (C92_definition _ _ _ _ _ _ _ _ _ o.gravity hr).1 w1
  have f2 := (C92_definition _ _ _ _ _ _ _ _ _ o.gravity hr).1 w2
  rw [(hsp h).1, (hsp h).2, o.hostRadius, o.hostSpin, o.hostDissipation, o.companionMass] at f1
  rw [(hsp i).1, (hsp i).2, o.companionRadius, o.companionSpin, o.companionDissipation, o.hostMass] at f2
  rw [o.companionMass] at w3
  rw [w3, f1, f2, tideForce, tideForce]
  congr 3 <;> ring_nf

/-- The tides push host and companion with opposite forces if there are no other bodies. -/
theorem TidalOrbit.relative (o : TidalOrbit k m eps2 evolution ignore u u' h i mu a e p q M mi Rh Ri lh li sh si wh wi)
    (two : ∀ j, j = h ∨ j = i) (t : ℝ) :
    ((u' t).particles i).tides.acceleration - ((u' t).particles h).tides.acceleration
      = (1 / mi + 1 / M) • (mi • ((u' t).particles i).tides.acceleration) := by
  have hM : M ≠ 0 := by rw [← o.hostMass 0]; exact o.masses 0 h
  have hm : mi ≠ 0 := by rw [← o.companionMass 0]; exact o.masses 0 i
  have hs := C33_evaluation (o.hosts t) (o.host t) (o.tides t) (o.ctl t) (o.masses t) (o.apart t) (o.evaluated t)
  have hu : (univ : Finset (Fin n)) = {h, i} := by
    ext j
    simpa using two j
  rw [hu, sum_pair o.other.symm, o.hostMass, o.companionMass] at hs
  generalize ((u' t).particles i).tides.acceleration = x at *
  generalize ((u' t).particles h).tides.acceleration = y at *
  have hy : y = -(mi / M) • x := by
    rw [neg_smul, eq_neg_iff_add_eq_zero, ← smul_right_inj hM, smul_add, smul_smul, mul_div_cancel₀ _ hM, hs, smul_zero]
  rw [hy, smul_smul, neg_smul, sub_neg_eq_add]
  rw [show (1 / mi + 1 / M) * mi = 1 + mi / M by field_simp, add_smul, one_smul]

/-- **C116**: the work that the tides of a companion and its host do on their orbit in a revolution. -/
theorem C116_work (o : TidalOrbit k m eps2 evolution ignore u u' h i mu a e p q M mi Rh Ri lh li sh si wh wi) :
    Gain (fun t => (mi • ((u' t).particles i).tides.acceleration).dot
        (((u t).particles i).inertialVelocity - ((u t).particles h).inertialVelocity)) (2 * Real.pi / orbitRate mu a)
      (orbitWork mu a e (9 / 2 * mi ^ 2 * Rh ^ 10 * sh) (wh.dot (p.cross q))
        + orbitWork mu a e (9 / 2 * M ^ 2 * Ri ^ 10 * si) (wi.dot (p.cross q))) := by
  refine ((tide_work o.orbit (3 * k.g * mi ^ 2 * Rh ^ 5 * lh) (9 / 2 * mi ^ 2 * Rh ^ 10 * sh) wh).add
    (tide_work o.orbit (3 * k.g * M ^ 2 * Ri ^ 5 * li) (9 / 2 * M ^ 2 * Ri ^ 10 * si) wi)).congr (fun t => ?_) ?_
  · rw [o.force, Axes.add_dot]
  · rfl

/-- **C116**: the angular momentum, along the normal of the orbit, that the tides give to the orbit in a revolution. -/
theorem C116_torque (o : TidalOrbit k m eps2 evolution ignore u u' h i mu a e p q M mi Rh Ri lh li sh si wh wi) :
    Gain (fun t => ((((u t).particles i).inertialPosition - ((u t).particles h).inertialPosition).cross
        (mi • ((u' t).particles i).tides.acceleration)).dot (p.cross q)) (2 * Real.pi / orbitRate mu a)
      (orbitTorque mu a e (9 / 2 * mi ^ 2 * Rh ^ 10 * sh) (wh.dot (p.cross q))
        + orbitTorque mu a e (9 / 2 * M ^ 2 * Ri ^ 10 * si) (wi.dot (p.cross q))) := by
  refine ((tide_torque o.orbit (3 * k.g * mi ^ 2 * Rh ^ 5 * lh) (9 / 2 * mi ^ 2 * Rh ^ 10 * sh) wh).add
    (tide_torque o.orbit (3 * k.g * M ^ 2 * Ri ^ 5 * li) (9 / 2 * M ^ 2 * Ri ^ 10 * si) wi)).congr (fun t => ?_) ?_
  · rw [o.force, Axes.cross_add, Axes.add_dot]
  · rfl

/-- **C117**: the change of the eccentricity in a revolution, if there are no other bodies. -/
theorem C117_eccentricity (o : TidalOrbit k m eps2 evolution ignore u u' h i mu a e p q M mi Rh Ri lh li sh si wh wi)
    (two : ∀ j, j = h ∨ j = i) :
    Gain (fun t => (eccentricityRate mu (((u t).particles i).inertialPosition - ((u t).particles h).inertialPosition)
        (((u t).particles i).inertialVelocity - ((u t).particles h).inertialVelocity)
        (((u' t).particles i).tides.acceleration - ((u' t).particles h).tides.acceleration)).dot p)
      (2 * Real.pi / orbitRate mu a)
      ((1 / mi + 1 / M) * (orbitShape mu a e (9 / 2 * mi ^ 2 * Rh ^ 10 * sh) (wh.dot (p.cross q))
        + orbitShape mu a e (9 / 2 * M ^ 2 * Ri ^ 10 * si) (wi.dot (p.cross q)))) := by
  refine (((tide_eccentricity o.orbit (3 * k.g * mi ^ 2 * Rh ^ 5 * lh) (9 / 2 * mi ^ 2 * Rh ^ 10 * sh) wh).add
    (tide_eccentricity o.orbit (3 * k.g * M ^ 2 * Ri ^ 5 * li) (9 / 2 * M ^ 2 * Ri ^ 10 * si) wi)).const_mul (1 / mi + 1 / M)).congr
    (fun t => ?_) ?_
  · rw [o.relative two, o.force, eccentricityRate_smul, Axes.smul_dot, eccentricityRate_add, Axes.add_dot]
  · rfl

/-- **C117**: the turn of the pericentre in a revolution, if there are no other bodies: the quantity is the eccentricity times
the angle, the angle is that of Sterne (1939). -/
theorem C117_pericentre (o : TidalOrbit k m eps2 evolution ignore u u' h i mu a e p q M mi Rh Ri lh li sh si wh wi)
    (two : ∀ j, j = h ∨ j = i) (hmu : mu = k.g * (M + mi)) :
    Gain (fun t => (eccentricityRate mu (((u t).particles i).inertialPosition - ((u t).particles h).inertialPosition)
        (((u t).particles i).inertialVelocity - ((u t).particles h).inertialVelocity)
        (((u' t).particles i).tides.acceleration - ((u' t).particles h).tides.acceleration)).dot q)
      (2 * Real.pi / orbitRate mu a)
      (e * (2 * Real.pi * (15 / 2) * (lh * (mi / M) * (Rh / a) ^ 5 + li * (M / mi) * (Ri / a) ^ 5)
        * (hut4 e / (1 - e ^ 2) ^ 5))) := by
  refine (((tide_apsides o.orbit (3 * k.g * mi ^ 2 * Rh ^ 5 * lh) (9 / 2 * mi ^ 2 * Rh ^ 10 * sh) wh).add
    (tide_apsides o.orbit (3 * k.g * M ^ 2 * Ri ^ 5 * li) (9 / 2 * M ^ 2 * Ri ^ 10 * si) wi)).const_mul (1 / mi + 1 / M)).congr
    (fun t => ?_) ?_
  · rw [o.relative two, o.force, eccentricityRate_smul, Axes.smul_dot, eccentricityRate_add, Axes.add_dot]
  · have hM : M ≠ 0 := by rw [← o.hostMass 0]; exact o.masses 0 h
    have hm : mi ≠ 0 := by rw [← o.companionMass 0]; exact o.masses 0 i
    have hw2 : Real.sqrt (1 - e ^ 2) ^ 10 = (1 - e ^ 2) ^ 5 := by
      rw [show (10 : Nat) = 2 * 5 from rfl, pow_mul, Real.sq_sqrt (by nlinarith [o.orbit.round, o.orbit.closed])]
    have ha := o.orbit.size
    have hmu0 := o.orbit.attracts
    have hg := o.gravity
    have hs : M + mi ≠ 0 := fun h0 => by rw [hmu, h0, mul_zero] at hmu0; exact lt_irrefl _ hmu0
    have he : (1 - e ^ 2) ≠ 0 := by nlinarith [o.orbit.round, o.orbit.closed]
    rw [hw2, hmu, hut4]
    field_simp
    ring

/-- **C116**: if both bodies rotate more slowly than the mean motion, in whatever direction, the tides take energy from the
orbit: the companion spirals in. -/
theorem C116_decay (o : TidalOrbit k m eps2 evolution ignore u u' h i mu a e p q M mi Rh Ri lh li sh si wh wi)
    (hRh : Rh ≠ 0) (hRi : Ri ≠ 0) (hsh : 0 < sh) (hsi : 0 < si)
    (slow : wh.dot (p.cross q) < orbitRate mu a) (slow' : wi.dot (p.cross q) < orbitRate mu a) {W : ℝ}
    (hW : Gain (fun t => (mi • ((u' t).particles i).tides.acceleration).dot
        (((u t).particles i).inertialVelocity - ((u t).particles h).inertialVelocity)) (2 * Real.pi / orbitRate mu a) W) :
    W < 0 := by
  rw [hW.unique (C116_work o)]
  have hM : M ≠ 0 := by rw [← o.hostMass 0]; exact o.masses 0 h
  have hm : mi ≠ 0 := by rw [← o.companionMass 0]; exact o.masses 0 i
  have p1 : 0 < 9 / 2 * mi ^ 2 * Rh ^ 10 * sh := by
    have := Even.pow_pos (show Even 10 by decide) hRh
    positivity
  have p2 : 0 < 9 / 2 * M ^ 2 * Ri ^ 10 * si := by
    have := Even.pow_pos (show Even 10 by decide) hRi
    positivity
  linarith [orbitWork_neg o.orbit.attracts o.orbit.size o.orbit.round o.orbit.closed p1 slow,
    orbitWork_neg o.orbit.attracts o.orbit.size o.orbit.round o.orbit.closed p2 slow']

end

/-- A star and a planet with tides on an ellipse of the eccentricity 3/5; `E` is the eccentric anomaly and `w` the rotation of the
planet. -/
noncomputable def tidalUniverse (w : Axes ℝ) (E : ℝ) : Universe ℝ 2 :=
  { exampleUniverse with
    particles := fun i => if i = 0 then
      { exampleStar with spin := ⟨2, 0, 0⟩, tides := { exampleStar.tides with effect := .central (.constantTimeLag 1 1 (1 / 2)) } }
      else { examplePlanet with
        inertialPosition := (Real.cos E - 3 / 5) • ⟨1, 0, 0⟩ + (Real.sqrt (1 - (3 / 5) ^ 2) * Real.sin E) • ⟨0, 1, 0⟩
        inertialVelocity := (-Real.sin E * (1 / (1 - 3 / 5 * Real.cos E))) • ⟨1, 0, 0⟩
          + (Real.sqrt (1 - (3 / 5) ^ 2) * (Real.cos E * (1 / (1 - 3 / 5 * Real.cos E)))) • ⟨0, 1, 0⟩
        spin := w
        angularMomentum := w
        tides := { examplePlanet.tides with effect := .orbiting (.constantTimeLag 1 1 (1 / 3)) } } }

theorem tidalUniverse_defined (k : Consts ℝ) (m : Models ℝ) (w : Axes ℝ) (E t : ℝ) :
    ∃ u', calculateAdditionalEffects k m 0 t false true true .none (inertialToHeliocentric (tidalUniverse w E)) = some u' := by
  have hh : HasHosts (inertialToHeliocentric (tidalUniverse w E)) := by
    constructor <;> simp [inertialToHeliocentric, tidalUniverse, exampleUniverse]
  have hn := (additionalEffects_none (k := k) (m := m) (eps2 := 0) (time := t) (evolution := false)
    (dL := true) (acc := true) (ignore := .none) hh rfl).not
  refine Option.ne_none_iff_exists'.1 (hn.2 ?_)
  rintro ⟨i, hi⟩
  have hI : ((inertialToHeliocentric (tidalUniverse w E)).particles i).momentOfInertia = 1 := by
    by_cases hi : i = 0 <;>
      simp [inertialToHeliocentric, tidalUniverse, exampleUniverse, mapHost, mapOthers, hi, examplePlanet,
        exampleStar, toHeliocentric, zeroHeliocentric]
  rw [hI] at hi
  simp at hi

theorem orbitRate_one : orbitRate 1 1 = 1 := by simp [orbitRate]

theorem tidalUniverse_orbit (k : Consts ℝ) (m : Models ℝ) (hk : k.g ≠ 0) (w : Axes ℝ) :
    ∃ (E : ℝ → ℝ) (u' : ℝ → Universe ℝ 2),
    TidalOrbit k m 0 false .none (fun t => tidalUniverse w (E t)) u' 0 1 1 1 (3 / 5) ⟨1, 0, 0⟩ ⟨0, 1, 0⟩ 1 1 1 1 (1 / 2) (1 / 3)
      1 1 ⟨2, 0, 0⟩ w := by
  obtain ⟨E, hE⟩ := anomaly_exists (e := 3 / 5) (by norm_num) 1
  have hd := fun t => tidalUniverse_defined k m w (E t) t
  choose u' hu using hd
  have hdist : ∀ t, ((tidalUniverse w (E t)).particles 1).inertialPosition ≠ 0 := by
    intro t h0
    have hx := congrArg Axes.x h0
    have hy := congrArg Axes.y h0
    simp [tidalUniverse, Axes.smul_x, Axes.smul_y, Axes.add_x, Axes.add_y] at hx hy
    have hw : Real.sqrt (1 - (3 / 5) ^ 2) ≠ 0 := (Real.sqrt_pos.2 (by norm_num)).ne'
    have hs := (hy.resolve_left (by simpa using hw))
    have := Real.sin_sq_add_cos_sq (E t)
    rw [hs, sub_eq_zero.1 hx] at this
    norm_num at this
  have rel : ∀ t, ((tidalUniverse w (E t)).particles 1).inertialPosition
      - ((tidalUniverse w (E t)).particles 0).inertialPosition
      = (Real.cos (E t) - 3 / 5) • (⟨1, 0, 0⟩ : Axes ℝ) + (Real.sqrt (1 - (3 / 5) ^ 2) * Real.sin (E t)) • ⟨0, 1, 0⟩ := by
    intro t
    ext <;> simp [tidalUniverse, exampleStar, blank]
  have rel' : ∀ t, ((tidalUniverse w (E t)).particles 1).inertialVelocity
      - ((tidalUniverse w (E t)).particles 0).inertialVelocity
      = (-Real.sin (E t) * (1 / (1 - 3 / 5 * Real.cos (E t)))) • (⟨1, 0, 0⟩ : Axes ℝ)
        + (Real.sqrt (1 - (3 / 5) ^ 2) * (Real.cos (E t) * (1 / (1 - 3 / 5 * Real.cos (E t))))) • ⟨0, 1, 0⟩ := by
    intro t
    ext <;> simp [tidalUniverse, exampleStar, blank]
  refine ⟨E, u', ?_⟩
  exact {
    gravity := hk
    other := by decide
    hosts := fun t => by constructor <;> simp [tidalUniverse, exampleUniverse]
    host := fun t => rfl
    tides := fun t => rfl
    ctl := fun t => by
      refine ⟨⟨1, 1, 1 / 2, by simp [tidalUniverse]⟩, fun i hi => ⟨1, 1, 1 / 3, ?_⟩⟩
      simp [tidalUniverse, hi]
    masses := fun t i => by by_cases hi : i = 0 <;> simp [tidalUniverse, hi, examplePlanet, exampleStar]
    apart := fun t i hi => by
      have : i = 1 := by omega
      subst this
      have h0 : ((tidalUniverse w (E t)).particles 0).inertialPosition = 0 := by
        simp [tidalUniverse, exampleStar, blank]
      rw [h0]
      exact hdist t
    static := fun t => rfl
    spins := fun t i => by by_cases hi : i = 0 <;> simp [tidalUniverse, hi, exampleStar, examplePlanet]
    evaluated := hu
    hostTide := fun t => ⟨1, 1, by simp [tidalUniverse]⟩
    companionTide := fun t => ⟨1, 1, by simp [tidalUniverse]⟩
    hostEquilibrium := fun t => by simp [tidalUniverse, exampleStar, blank, dynamicalTideModels]
    companionEquilibrium := fun t => by simp [tidalUniverse, examplePlanet, blank, dynamicalTideModels]
    hostMass := fun t => by simp [tidalUniverse, exampleStar]
    companionMass := fun t => by simp [tidalUniverse, examplePlanet]
    hostRadius := fun t => by simp [tidalUniverse, exampleStar]
    companionRadius := fun t => by simp [tidalUniverse, examplePlanet]
    hostDissipation := fun t => by simp [tidalUniverse, exampleStar]
    companionDissipation := fun t => by simp [tidalUniverse, examplePlanet]
    hostSpin := fun t => by simp [tidalUniverse]
    companionSpin := fun t => by simp [tidalUniverse]
    orbit := {
      attracts := one_pos
      size := one_pos
      round := by norm_num
      closed := by norm_num
      pp := by simp [Axes.dot]
      qq := by simp [Axes.dot]
      pq := by simp [Axes.dot]
      place := ⟨E, by rw [orbitRate_one]; exact hE, fun t => by rw [rel]; simp⟩
      moves := fun t => by
        have dE := anomaly_deriv (e := 3 / 5) (by norm_num) (by norm_num) one_ne_zero hE t
        have hv := WHFast.vecDeriv_combination (a := 0) (b := 0) ⟨1, 0, 0⟩ ⟨0, 1, 0⟩
          (((Real.hasDerivAt_cos (E t)).comp t dE).sub_const (3 / 5))
          (((Real.hasDerivAt_sin (E t)).comp t dE).const_mul (Real.sqrt (1 - (3 / 5) ^ 2)))
        rw [show (fun t => ((tidalUniverse w (E t)).particles 1).inertialPosition
          - ((tidalUniverse w (E t)).particles 0).inertialPosition) = _ from funext rel, rel']
        exact hv } }

/-- Tides shrink the orbit of a planet that rotates more slowly than it revolves, make it rounder ... -/
example (k : Consts ℝ) (m : Models ℝ) (hk : k.g = 1 / 2) : ∃ (E : ℝ → ℝ) (u' : ℝ → Universe ℝ 2) (W D P : ℝ),
    (∀ t, calculateAdditionalEffects k m 0 t false true true .none (inertialToHeliocentric (tidalUniverse ⟨0, 0, 1 / 2⟩ (E t)))
      = some (u' t))
    ∧ Gain (fun t => ((1 : ℝ) • ((u' t).particles 1).tides.acceleration).dot
        (((tidalUniverse ⟨0, 0, 1 / 2⟩ (E t)).particles 1).inertialVelocity - ((tidalUniverse ⟨0, 0, 1 / 2⟩ (E t)).particles 0).inertialVelocity))
        (2 * Real.pi / orbitRate 1 1) W ∧ W < 0
    ∧ Gain (fun t => (eccentricityRate 1 (((tidalUniverse ⟨0, 0, 1 / 2⟩ (E t)).particles 1).inertialPosition
          - ((tidalUniverse ⟨0, 0, 1 / 2⟩ (E t)).particles 0).inertialPosition)
        (((tidalUniverse ⟨0, 0, 1 / 2⟩ (E t)).particles 1).inertialVelocity - ((tidalUniverse ⟨0, 0, 1 / 2⟩ (E t)).particles 0).inertialVelocity)
        (((u' t).particles 1).tides.acceleration - ((u' t).particles 0).tides.acceleration)).dot ⟨1, 0, 0⟩)
        (2 * Real.pi / orbitRate 1 1) D ∧ D < 0
    ∧ Gain (fun t => (eccentricityRate 1 (((tidalUniverse ⟨0, 0, 1 / 2⟩ (E t)).particles 1).inertialPosition
          - ((tidalUniverse ⟨0, 0, 1 / 2⟩ (E t)).particles 0).inertialPosition)
        (((tidalUniverse ⟨0, 0, 1 / 2⟩ (E t)).particles 1).inertialVelocity - ((tidalUniverse ⟨0, 0, 1 / 2⟩ (E t)).particles 0).inertialVelocity)
        (((u' t).particles 1).tides.acceleration - ((u' t).particles 0).tides.acceleration)).dot ⟨0, 1, 0⟩)
        (2 * Real.pi / orbitRate 1 1) P ∧ 0 < P := by
  obtain ⟨E, u', o⟩ := tidalUniverse_orbit k m (by rw [hk]; norm_num) ⟨0, 0, 1 / 2⟩
  have two : ∀ j : Fin 2, j = 0 ∨ j = 1 := by decide
  refine ⟨E, u', _, _, _, o.evaluated, C116_work o, C116_decay o one_ne_zero one_ne_zero one_pos one_pos ?_ ?_ (C116_work o),
    C117_eccentricity o two, ?_, C117_pericentre o two (by rw [hk]; norm_num), ?_⟩
  · rw [orbitRate_one]; simp [Axes.dot, Axes.cross]
  · rw [orbitRate_one]; simp [Axes.dot, Axes.cross]; norm_num
  · have hw : Real.sqrt (1 - (3 / 5) ^ 2) = 4 / 5 := by
      rw [show (1 : ℝ) - (3 / 5) ^ 2 = (4 / 5) ^ 2 by norm_num, Real.sqrt_sq (by norm_num)]
    have hpi := Real.pi_pos
    unfold orbitShape hut3 hut4
    rw [orbitRate_one, hw]
    simp [Axes.dot, Axes.cross]
    norm_num
    nlinarith
  · have hpi := Real.pi_pos
    unfold hut4
    have h1 : (1 : ℝ) - (3 / 5) ^ 2 = 16 / 25 := by norm_num
    rw [h1]
    positivity

end Posidonius.Univ
